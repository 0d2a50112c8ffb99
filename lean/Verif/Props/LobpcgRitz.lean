import Verif.Lemmas.LobpcgLow
import Verif.Props.Lobpcg

/-!
C119: what the pairs LOBPCG returns are worth whatever the return code (except for a NaN residual): they are the Ritz
pairs of a space that contains the vectors of the iteration before, so they only improve.
-/

namespace Verif.Lobpcg

open Spec Solver Lapack Matrix

variable {K : Type} [Field K] [LinearOrder K] [IsStrictOrderedRing K] {n : Nat} {M Q : Matrix (Fin n) (Fin n) K}

/-! ### All columns -/

theorem columns_gen {Inv : St (Ext K) → Prop} {C : Nat → List (Ext K) → Ext K → Prop}
    {body : Nat → St (Ext K) → Res (Sum (Out (Ext K)) (St (Ext K) × Ext K))} {m : Nat}
    (hbody : ∀ i s s' r, Inv s → body i s = .ok (.inr (s', r)) →
      Inv s' ∧ ∃ x li, s'.F.x = s.F.x.set i x ∧ s'.l = s.l.set i li ∧ C i x li) :
    ∀ (k j : Nat) (rs : List (Ext K)) (s s' : St (Ext K)) (rs' : List (Ext K)),
    Inv s → s.F.x.length = m → s.l.length = m → j + k = m →
    (∀ i, i < j → ∃ x li, s.F.x[i]? = some x ∧ s.l[i]? = some li ∧ C i x li) →
    columns body (List.range' j k) rs s = .ok (.inr (s', rs')) →
    Inv s' ∧ s'.F.x.length = m ∧ s'.l.length = m ∧
      ∀ i, i < m → ∃ x li, s'.F.x[i]? = some x ∧ s'.l[i]? = some li ∧ C i x li
  | 0, j, rs, s, s', rs', hI, hx, hl, hjk, hg, h => by
    simp only [List.range'_zero, columns] at h
    cases h
    exact ⟨hI, hx, hl, fun i hi => hg i (by omega)⟩
  | k + 1, j, rs, s, s', rs', hI, hx, hl, hjk, hg, h => by
    rw [List.range'_succ, columns] at h
    obtain ⟨o, ho, h⟩ := Res.bind_eq_ok.mp h
    cases o with
    | inl o => cases h
    | inr q =>
      obtain ⟨s1, r⟩ := q
      obtain ⟨hI1, x, li, e1, e2, hc⟩ := hbody j s s1 r hI ho
      refine columns_gen hbody k (j + 1) (rs ++ [r]) s1 s' rs' hI1 (by rw [e1]; simpa using hx)
        (by rw [e2]; simpa using hl) (by omega) ?_ h
      intro i hi
      rw [e1, e2]
      by_cases hij : i = j
      · subst hij
        exact ⟨x, li, by rw [List.getElem?_set_self (by omega)], by rw [List.getElem?_set_self (by omega)], hc⟩
      · rw [List.getElem?_set_ne (by omega), List.getElem?_set_ne (by omega)]
        exact hg i (by omega)

theorem column_c (sq : K → K) (hn : 0 < n)
    {A : Mat (Ext K)} (hA : ∀ v, A.mv (vec Ext.fin v) = .ok (vec Ext.fin (M *ᵥ v)))
    {pc : List (Ext K) → Res (List (Ext K))} {m k iter i : Nat} {S : List (Ext K)}
    {prev s : St (Ext K)} (hp : SFam M m prev.F prev.G) {s' : St (Ext K)} {r : Ext K}
    (h : column (Ext.num sq) A pc m n k S iter prev i s = .ok (.inr (s', r))) :
    ∃ w x p W X P li, s' = { s with F := s.F.put i w x p, G := s.G.put i W X P, l := s.l.set i li } ∧
      SRel M w W ∧ SRel M x X ∧ SRel M p P ∧ ColC sq n m k S prev.F s.lam i x li := by
  unfold column at h
  obtain ⟨li, hli, h⟩ := Res.bind_eq_ok.mp h
  obtain ⟨l', hl', h⟩ := Res.bind_eq_ok.mp h
  obtain ⟨b, hb, h⟩ := Res.bind_eq_ok.mp h
  obtain ⟨px, hpx, h⟩ := Res.bind_eq_ok.mp h
  obtain ⟨PX, hPX, h⟩ := Res.bind_eq_ok.mp h
  obtain ⟨w, hw, h⟩ := Res.bind_eq_ok.mp h
  obtain ⟨w', hw', h⟩ := Res.bind_eq_ok.mp h
  obtain ⟨r1, r2⟩ := combine_srel sq hn hp hpx hPX
  by_cases hnan : (Ext.num sq).isNaN ((Ext.num sq).nrm2 w') = true
  · rw [if_pos hnan] at h; cases h
  · rw [if_neg hnan] at h
    obtain ⟨W, hW, h⟩ := Res.bind_eq_ok.mp h
    cases h
    refine ⟨_, _, _, W, _, _, li, by rw [wr_eq_ok hl'], srel_mvInto hA hW, r2.scal sq hn, r1.scal sq hn,
      rd_eq_ok.mp hli, ?_⟩
    intro v hv
    obtain ⟨u, c, hu, hc, hvu⟩ := scaled sq hn hv
    exact ⟨b, px, u, c, hb, hpx, hu, hc, hvu⟩

theorem gcolumn_c (sq : K → K) (hn : 0 < n)
    {A B : Mat (Ext K)} (hA : ∀ v, A.mv (vec Ext.fin v) = .ok (vec Ext.fin (M *ᵥ v)))
    (hB : ∀ v, B.mv (vec Ext.fin v) = .ok (vec Ext.fin (Q *ᵥ v)))
    {pc : List (Ext K) → Res (List (Ext K))} {m k iter i : Nat} {S : List (Ext K)}
    {prev s : St (Ext K)} (hp : SFam M m prev.F prev.G) (hp' : SFam Q m prev.F prev.H) {s' : St (Ext K)} {r : Ext K}
    (h : gcolumn (Ext.num sq) A B pc m n k S iter prev i s = .ok (.inr (s', r))) :
    ∃ w x p W X P BW BX BP li, s' = { s with F := s.F.put i w x p, G := s.G.put i W X P, H := s.H.put i BW BX BP,
                                             l := s.l.set i li } ∧
      (SRel M w W ∧ SRel M x X ∧ SRel M p P) ∧ (SRel Q w BW ∧ SRel Q x BX ∧ SRel Q p BP) ∧
        ColC sq n m k S prev.F s.lam i x li := by
  unfold gcolumn at h
  obtain ⟨li, hli, h⟩ := Res.bind_eq_ok.mp h
  obtain ⟨l', hl', h⟩ := Res.bind_eq_ok.mp h
  obtain ⟨b, hb, h⟩ := Res.bind_eq_ok.mp h
  obtain ⟨px, hpx, h⟩ := Res.bind_eq_ok.mp h
  obtain ⟨PX, hPX, h⟩ := Res.bind_eq_ok.mp h
  obtain ⟨BPX, hBPX, h⟩ := Res.bind_eq_ok.mp h
  obtain ⟨w, hw, h⟩ := Res.bind_eq_ok.mp h
  obtain ⟨w', hw', h⟩ := Res.bind_eq_ok.mp h
  obtain ⟨r1, r2⟩ := combine_srel sq hn hp hpx hPX
  obtain ⟨q1, q2⟩ := combine_srel sq hn hp' hpx hBPX
  by_cases hnan : (Ext.num sq).isNaN ((Ext.num sq).nrm2 w') = true
  · rw [if_pos hnan] at h; cases h
  · rw [if_neg hnan] at h
    obtain ⟨W, hW, h⟩ := Res.bind_eq_ok.mp h
    obtain ⟨BW, hBW, h⟩ := Res.bind_eq_ok.mp h
    cases h
    refine ⟨_, _, _, W, _, _, BW, _, _, li, by rw [wr_eq_ok hl'],
      ⟨srel_mvInto hA hW, r2.scal sq hn, r1.scal sq hn⟩, ⟨srel_mvInto hB hBW, q2.scal sq hn, q1.scal sq hn⟩,
      rd_eq_ok.mp hli, ?_⟩
    intro v hv
    obtain ⟨u, c, hu, hc, hvu⟩ := scaled sq hn hv
    exact ⟨b, px, u, c, hb, hpx, hu, hc, hvu⟩

/-! ### One pass -/

/-- finite vectors `xs` are Ritz vectors, with the numbers `ls`, and not worse than `start` -/
def Fine (M Q : Matrix (Fin n) (Fin n) K) (m : Nat) (start xs : List (List (Ext K))) (ls : List (Ext K)) : Prop :=
  ∀ v : Fin m → Fin n → K, xs = List.ofFn (fun i => vec Ext.fin (v i)) →
    ∃ lam : Fin m → K, ls = List.ofFn (fun i => Ext.fin (lam i)) ∧ RitzPairs M Q lam v ∧
      Improves M Q Ext.fin start lam ∧ ∃ v0 : Fin m → Fin n → K, start = List.ofFn fun i => vec Ext.fin (v0 i)

structure Base (M Q : Matrix (Fin n) (Fin n) K) (hf : St (Ext K) → Fam (Ext K)) (m : Nat) (s : St (Ext K)) : Prop where
  inv : Inv0 M Q hf m s
  l : s.l.length = m

/-- what a pass from `s` leads to -/
def PassFine (M Q : Matrix (Fin n) (Fin n) K) (hf : St (Ext K) → Fam (Ext K)) (m : Nat) (s : St (Ext K)) :
    Pass (Ext K) → Prop
  | .done o => o.status = RESIDUAL_NAN ∨ Fine M Q m s.F.x o.x o.l
  | .restart s' => Base M Q hf m s' ∧ s'.F = s.F ∧ s'.l = s.l
  | .next s' _ => Base M Q hf m s' ∧ Fine M Q m s.F.x s'.F.x s'.l

theorem columns_inl_nan {body : Nat → St (Ext K) → Res (Sum (Out (Ext K)) (St (Ext K) × Ext K))} {o : Out (Ext K)}
    (hf : ∀ i z o, body i z = .ok (.inl o) → o.status = RESIDUAL_NAN) :
    ∀ (is : List Nat) (rs : List (Ext K)) (z : St (Ext K)), columns body is rs z = .ok (.inl o) →
      o.status = RESIDUAL_NAN
  | [], rs, z, h => by cases h
  | i :: is, rs, z, h => by
    rw [columns] at h
    obtain ⟨q, hq, h⟩ := Res.bind_eq_ok.mp h
    cases q with
    | inl o' => cases h; exact hf _ _ _ hq
    | inr q => exact columns_inl_nan hf is _ q.1 h

theorem passWith_ritz (sq : K → K) (hn : 0 < n) (hM : Mᵀ = M) (hQ : Qᵀ = Q) {L : Lib (Ext K)} (hL : Dsygvd L)
    {hf : St (Ext K) → Fam (Ext K)} (hlam : ∀ s lam, hf { s with lam := lam } = hf s)
    {cfg : Cfg (Ext K)} {m iter k : Nat} (hk2 : 2 * m ≤ k) (hk3 : k ≤ 3 * m) {lb ub : Int}
    (hlb : lb = 2 * (k : Int) - m) (hub : ub = 2 * (k : Int))
    (hquiet : ∀ a b : List (Ext K), ¬ Ignored m k (L.sygvd 1 true false k a k b k).2.2.2)
    {body : (k : Nat) → (S : List (Ext K)) → (prev : St (Ext K)) → Nat → St (Ext K) →
      Res (Sum (Out (Ext K)) (St (Ext K) × Ext K))}
    (hbody : ∀ S prev i s s' r, Inv0 M Q hf m prev → Inv0 M Q hf m s → body k S prev i s = .ok (.inr (s', r)) →
      (Inv0 M Q hf m s' ∧ s'.lam = s.lam) ∧ ∃ x li, s'.F.x = s.F.x.set i x ∧ s'.l = s.l.set i li ∧
        ColC sq n m k S prev.F s.lam i x li)
    (hnan : ∀ S prev i s o, body k S prev i s = .ok (.inl o) → o.status = RESIDUAL_NAN)
    {s : St (Ext K)} (hs : Base M Q hf m s) {p : Pass (Ext K)}
    (h : passWith (Ext.num sq) L cfg m iter k lb ub (fun s => (hf s).rows) body s = .ok p) :
    PassFine M Q hf m s p := by
  unfold passWith at h
  dsimp only at h
  generalize hr : L.sygvd 1 true false k (gram (Ext.num sq) (s.G.rows.take k) (s.F.rows.take k)) k
    (gram (Ext.num sq) ((hf s).rows.take k) (s.F.rows.take k)) k = r at h
  have hs1 : Inv0 M Q hf m { s with lam := overwrite s.lam r.2.2.1 } :=
    ⟨hs.inv.im, by rw [hlam]; exact hs.inv.iq⟩
  split at h
  · cases h
    exact ⟨⟨hs1, hs.l⟩, rfl, rfl⟩
  · split at h
    · cases h
    · rename_i hI1 hI2
      have hinfo : r.2.2.2 = 0 := by
        have := hquiet (gram (Ext.num sq) (s.G.rows.take k) (s.F.rows.take k))
          (gram (Ext.num sq) ((hf s).rows.take k) (s.F.rows.take k))
        rw [hr] at this
        unfold Ignored at this
        by_contra hne
        rw [hlb, hub] at hI1
        exact this ⟨hne, by
          by_contra hlt
          exact hI2 ⟨hne, by omega⟩, hI1⟩
      obtain ⟨c, hc, h⟩ := Res.bind_eq_ok.mp h
      cases c with
      | inl o =>
        cases h
        exact Or.inl (columns_inl_nan (fun i z o => hnan _ _ i z o) _ _ _ hc)
      | inr q =>
        obtain ⟨s', rs⟩ := q
        obtain ⟨resid, hmax, h⟩ := Res.bind_eq_ok.mp h
        rw [List.range_eq_range'] at hc
        have hm : 0 < m := by
          by_contra h0
          have : m = 0 := by omega
          subst this
          simp only [List.range'_zero, columns] at hc
          cases hc
          cases hmax
        obtain ⟨⟨hI, hla⟩, hx, hl, hg⟩ := columns_gen
          (Inv := fun z => Inv0 M Q hf m z ∧ z.lam = overwrite s.lam r.2.2.1)
          (C := fun i x li => ColC sq n m k r.1 s.F (overwrite s.lam r.2.2.1) i x li) (m := m)
          (by
            intro i z z' q hz hb
            obtain ⟨⟨h1, h2⟩, x, li, h3, h4, h5⟩ := hbody _ _ i z z' q hs1 hz.1 hb
            rw [hz.2] at h5 h2
            exact ⟨⟨h1, h2⟩, x, li, h3, h4, h5⟩) m 0 [] _ s' rs ⟨hs1, rfl⟩ hs.inv.im.x.l1 hs.l (by omega)
          (by intro i hi; omega) hc
        have hfine : Fine M Q m s.F.x s'.F.x s'.l := by
          intro v hv
          rw [← hr] at hinfo hg
          exact ritz_of sq hn hM hQ hL hm hk2 hk3 hs.inv hinfo hl hg hv
        split at h
        · cases h
          exact Or.inr hfine
        · cases h
          exact ⟨⟨hI, hl⟩, hfine⟩

/-! ### The loop -/

/-- what is at least as good as the vectors of Ritz pairs is at least as good as their numbers -/
theorem ritz_le {m : Nat} {lam lam' : Fin m → K} {v : Fin m → Fin n → K} (hr : RitzPairs M Q lam v)
    (h : Improves M Q Ext.fin (List.ofFn fun i => vec Ext.fin (v i)) lam') (i : Fin m) : lam' i ≤ lam i := by
  refine h i (fun j => j) (fun j => v ⟨j, by omega⟩) (lam i) (fun a b hab => Fin.ext hab) ?_ ?_
  · intro j
    have hj : (j : Nat) < m := by omega
    simp [List.getElem?_ofFn, hj]
  · intro c
    have form : ∀ (N : Matrix (Fin n) (Fin n) K), (∀ a b : Fin m, a ≠ b → v a ⬝ᵥ (N *ᵥ v b) = 0) →
        (∑ j : Fin ((i : Nat) + 1), c j • v ⟨j, by omega⟩) ⬝ᵥ (N *ᵥ ∑ j : Fin ((i : Nat) + 1), c j • v ⟨j, by omega⟩) =
        ∑ j : Fin ((i : Nat) + 1), c j * c j * (v ⟨j, by omega⟩ ⬝ᵥ (N *ᵥ v ⟨j, by omega⟩)) := by
      intro N hN
      rw [sum_dotProduct]
      refine Finset.sum_congr rfl fun a _ => ?_
      rw [Matrix.mulVec_sum, dotProduct_sum, Finset.sum_eq_single a]
      · exact form_smul N _ _ _ _
      · intro b _ hb
        rw [form_smul, hN _ _ (fun hh => hb (Fin.ext (congrArg Fin.val hh).symm)), mul_zero]
      · intro hb; exact absurd (Finset.mem_univ _) hb
    rw [form M (fun a b hab => (hr.orth a b hab).2), form Q (fun a b hab => (hr.orth a b hab).1), Finset.mul_sum]
    refine Finset.sum_le_sum fun j _ => ?_
    rw [hr.quot]
    have h1 := hr.sorted ⟨j, by omega⟩ i (by rw [Fin.le_def]; simp only; omega)
    have h2 := mul_nonneg (mul_self_nonneg (c j)) (le_of_lt (hr.pos ⟨j, by omega⟩))
    have h3 := mul_le_mul_of_nonneg_right h1 h2
    calc _ = lam ⟨j, by omega⟩ * (c j * c j * (v ⟨j, by omega⟩ ⬝ᵥ (Q *ᵥ v ⟨j, by omega⟩))) := by ring
      _ ≤ _ := h3

/-- vectors that are Ritz vectors and not worse than `start` offer nothing that `start` does not -/
theorem improves_trans {m : Nat} {start : List (List (Ext K))} {lam lam' : Fin m → K} {v : Fin m → Fin n → K}
    (hr : RitzPairs M Q lam v) (hi : Improves M Q Ext.fin start lam)
    (h : Improves M Q Ext.fin (List.ofFn fun i => vec Ext.fin (v i)) lam') : Improves M Q Ext.fin start lam' := by
  intro i r u ρ hinj hu hq
  exact le_trans (ritz_le hr h i) (hi i r u ρ hinj hu hq)

/-- the state after `iter` iterations -/
structure LInv (M Q : Matrix (Fin n) (Fin n) K) (hf : St (Ext K) → Fam (Ext K)) (m : Nat)
    (start : List (List (Ext K))) (iter : Nat) (s : St (Ext K)) : Prop where
  base : Base M Q hf m s
  better : ∀ v : Fin m → Fin n → K, s.F.x = List.ofFn (fun i => vec Ext.fin (v i)) →
    ∀ lam : Fin m → K, Improves M Q Ext.fin s.F.x lam → Improves M Q Ext.fin start lam
  fine : 0 < iter → ∀ v : Fin m → Fin n → K, s.F.x = List.ofFn (fun i => vec Ext.fin (v i)) →
    ∃ lam : Fin m → K, s.l = List.ofFn (fun i => Ext.fin (lam i)) ∧ RitzPairs M Q lam v ∧
      Improves M Q Ext.fin start lam

theorem loop_ritz {hf : St (Ext K) → Fam (Ext K)} {m : Nat} {start : List (List (Ext K))} {cfg : Cfg (Ext K)}
    (hmaxiter : 0 < cfg.maxiter)
    {body : (iter : Nat) → (singular : Bool) → St (Ext K) → Res (Pass (Ext K))}
    (hbody : ∀ iter singular s p, Base M Q hf m s → body iter singular s = .ok p → PassFine M Q hf m s p) :
    ∀ (fuel iter : Nat) (singular : Bool) (resid : Ext K) (s : St (Ext K)) (o : Out (Ext K)),
      LInv M Q hf m start iter s →
      loop cfg body fuel iter singular resid s = some (.ok o) → o.status ≠ RESIDUAL_NAN →
      ∀ v : Fin m → Fin n → K, o.x = List.ofFn (fun i => vec Ext.fin (v i)) →
        ∃ lam : Fin m → K, o.l = List.ofFn (fun i => Ext.fin (lam i)) ∧ RitzPairs M Q lam v ∧
          Improves M Q Ext.fin start lam
  | 0, _, _, _, _, _, _, h, _ => by simp [loop] at h
  | fuel + 1, iter, singular, resid, s, o, hs, h, hst => by
    have up : ∀ xs ls, Fine M Q m s.F.x xs ls → ∀ v : Fin m → Fin n → K, xs = List.ofFn (fun i => vec Ext.fin (v i)) →
        ∃ lam : Fin m → K, ls = List.ofFn (fun i => Ext.fin (lam i)) ∧ RitzPairs M Q lam v ∧
          Improves M Q Ext.fin start lam := by
      intro xs ls hfine v hv
      obtain ⟨lam, h1, h2, h3, v0, h4⟩ := hfine v hv
      exact ⟨lam, h1, h2, hs.better v0 h4 lam h3⟩
    rw [loop] at h
    split at h
    · cases hb : body iter singular s with
      | ok p =>
        have hp := hbody iter singular s p hs.base hb
        rw [hb] at h
        cases p with
        | done o' =>
          cases h
          rcases hp with hp | hp
          · exact absurd hp hst
          · exact up _ _ hp
        | restart s' =>
          obtain ⟨h1, h2, h3⟩ := hp
          refine loop_ritz hmaxiter hbody fuel _ _ _ s' o ⟨h1, ?_, ?_⟩ h hst
          · rw [h2]; exact hs.better
          · rw [h2, h3]; exact hs.fine
        | next s' r' =>
          obtain ⟨h1, h2⟩ := hp
          refine loop_ritz hmaxiter hbody fuel _ _ _ s' o ⟨h1, ?_, fun _ => up _ _ h2⟩ h hst
          intro v hv lam hl
          obtain ⟨lam0, _, h4, h5⟩ := up _ _ h2 v hv
          rw [hv] at hl
          exact improves_trans h4 h5 hl
      | throw e => rw [hb] at h; cases h
      | abort e => rw [hb] at h; cases h
      | ub e => rw [hb] at h; cases h
    · rename_i hge
      cases h
      exact hs.fine (by omega)

/-! ### Errors that are not reported -/

omit [IsStrictOrderedRing K] in
theorem loud_quiet (m k : Nat) (L : Lib (Ext K)) (a b : List (Ext K)) :
    ¬ Ignored m k ((loud m L).sygvd 1 true false k a k b k).2.2.2 := by
  simp only [loud]
  split
  · unfold Ignored; omega
  · assumption

omit [IsStrictOrderedRing K] in
theorem loud_ok (m : Nat) {L : Lib (Ext K)} (h : Dsygvd L) : Dsygvd (loud m L) := by
  intro k a b ha hb h0
  refine h k a b ha hb ?_
  simp only [loud] at h0
  split at h0
  · omega
  · exact h0

/-- the message of the exception -/
def errMsg : String := "internal LAPACK sygvd returned error"

theorem passWith_loud {α : Type} {N : Num α} {L : Lib α} {cfg : Cfg α} {m iter k : Nat} {lb ub : Int} (hlb : 0 ≤ lb)
    {sb : St α → List (List α)}
    {body : (k : Nat) → (S : List α) → (prev : St α) → Nat → St α → Res (Sum (Out α) (St α × α))} {s : St α} :
    passWith N (loud m L) cfg m iter k lb ub sb body s = passWith N L cfg m iter k lb ub sb body s ∨
      passWith N (loud m L) cfg m iter k lb ub sb body s = .throw errMsg := by
  unfold passWith
  dsimp only
  by_cases hI : Ignored m k (L.sygvd 1 true false k (gram N (s.G.rows.take k) (s.F.rows.take k)) k
    (gram N ((sb s).take k) (s.F.rows.take k)) k).2.2.2
  · right
    simp only [loud, if_pos hI]
    rw [if_neg (by omega), if_pos (by omega)]
    rfl
  · left
    simp only [loud, if_neg hI]

theorem pass_loud {α : Type} {N : Num α} {L : Lib α} {cfg : Cfg α} {m iter : Nat} {singular : Bool}
    {sb : St α → List (List α)}
    {body : (k : Nat) → (S : List α) → (prev : St α) → Nat → St α → Res (Sum (Out α) (St α × α))} {s : St α} :
    pass N (loud m L) cfg m iter singular sb body s = pass N L cfg m iter singular sb body s ∨
      pass N (loud m L) cfg m iter singular sb body s = .throw errMsg := by
  unfold pass
  split
  · exact passWith_loud (by omega)
  · exact passWith_loud (by omega)

theorem loop_or {α : Type} {cfg : Cfg α} {b b' : (iter : Nat) → (singular : Bool) → St α → Res (Pass α)} {e : String}
    (h : ∀ it sg s, b' it sg s = b it sg s ∨ b' it sg s = .throw e) :
    ∀ (fuel iter : Nat) (sg : Bool) (resid : α) (s : St α),
      loop cfg b' fuel iter sg resid s = loop cfg b fuel iter sg resid s ∨
        loop cfg b' fuel iter sg resid s = some (.throw e)
  | 0, _, _, _, _ => Or.inl rfl
  | fuel + 1, iter, sg, resid, s => by
    rw [loop, loop]
    split
    · rcases h iter sg s with hh | hh
      · rw [hh]
        cases b iter sg s with
        | ok p =>
          cases p with
          | done o => exact Or.inl rfl
          | restart s' => exact loop_or h fuel _ _ _ s'
          | next s' r' => exact loop_or h fuel _ _ _ s'
        | throw e => exact Or.inl rfl
        | abort e => exact Or.inl rfl
        | ub e => exact Or.inl rfl
      · rw [hh]; exact Or.inr rfl
    · exact Or.inl rfl

theorem standard_loud {α : Type} (N : Num α) (L : Lib α) (cfg : Cfg α) (A : Mat α)
    (create : Res (List α → Res (List α))) (l : List α) (xin : List (List α)) (xcol : Nat)
    (rs : Option (List (List α))) (fuel : Nat) :
    standard N (loud l.length L) cfg A create l xin xcol rs fuel = standard N L cfg A create l xin xcol rs fuel ∨
      standard N (loud l.length L) cfg A create l xin xcol rs fuel = some (.throw errMsg) := by
  unfold standard
  dsimp only
  split
  · exact loop_or (fun _ _ _ => pass_loud) _ _ _ _ _
  · exact Or.inl rfl
  · exact Or.inl rfl
  · exact Or.inl rfl

theorem generalized_loud {α : Type} (N : Num α) (L : Lib α) (cfg : Cfg α) (A B : Mat α)
    (create : Res (List α → Res (List α))) (l : List α) (xin : List (List α)) (xcol : Nat) (itype : Int)
    (rs : Option (List (List α))) (fuel : Nat) :
    generalized N (loud l.length L) cfg A B create l xin xcol itype rs fuel =
        generalized N L cfg A B create l xin xcol itype rs fuel ∨
      generalized N (loud l.length L) cfg A B create l xin xcol itype rs fuel = some (.throw errMsg) := by
  unfold generalized
  dsimp only
  split
  · exact loop_or (fun _ _ _ => pass_loud) _ _ _ _ _
  · exact Or.inl rfl
  · exact Or.inl rfl
  · exact Or.inl rfl

end Verif.Lobpcg
