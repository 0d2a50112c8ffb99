import Verif.Lemmas.LobpcgBlock
import Verif.Props.LobpcgConv

/-! C120 for several vectors: LOBPCG does not run out of iterations. -/

namespace Verif.Lobpcg

open Spec Solver Lapack Matrix

variable {K : Type} [Field K] [LinearOrder K] [IsStrictOrderedRing K] {n : Nat} {M : Matrix (Fin n) (Fin n) K}

/-- what is known of the columns already treated -/
def Cols (C : Nat → List (Ext K) → Ext K → Prop) (D : List (Ext K) → Ext K → List (Ext K) → Ext K → Prop) (j : Nat)
    (s : St (Ext K)) (rs : List (Ext K)) : Prop :=
  ∀ i, i < j → ∃ x li w r, s.F.x[i]? = some x ∧ s.l[i]? = some li ∧ s.F.w[i]? = some w ∧ rs[i]? = some r ∧ C i x li ∧
    D x li w r

theorem columns_d {Inv : St (Ext K) → Prop} {C : Nat → List (Ext K) → Ext K → Prop}
    {D : List (Ext K) → Ext K → List (Ext K) → Ext K → Prop}
    {body : Nat → St (Ext K) → Res (Sum (Out (Ext K)) (St (Ext K) × Ext K))} {m : Nat}
    (hlen : ∀ s, Inv s → s.F.x.length = m ∧ s.F.w.length = m)
    (hbody : ∀ i s s' r, Inv s → body i s = .ok (.inr (s', r)) →
      Inv s' ∧ ∃ w x li, s'.F.x = s.F.x.set i x ∧ s'.F.w = s.F.w.set i w ∧ s'.l = s.l.set i li ∧ C i x li ∧ D x li w r) :
    ∀ (k j : Nat) (rs : List (Ext K)) (s s' : St (Ext K)) (rs' : List (Ext K)),
    Inv s → s.l.length = m → rs.length = j → j + k = m → Cols C D j s rs →
    columns body (List.range' j k) rs s = .ok (.inr (s', rs')) →
    Inv s' ∧ s'.l.length = m ∧ rs'.length = m ∧ Cols C D m s' rs'
  | 0, j, rs, s, s', rs', hI, hl, hr, hjk, hg, h => by
    simp only [List.range'_zero, columns] at h
    cases h
    exact ⟨hI, hl, by omega, fun i hi => hg i (by omega)⟩
  | k + 1, j, rs, s, s', rs', hI, hl, hr, hjk, hg, h => by
    rw [List.range'_succ, columns] at h
    obtain ⟨o, ho, h⟩ := Res.bind_eq_ok.mp h
    cases o with
    | inl o => cases h
    | inr q =>
      obtain ⟨s1, r⟩ := q
      obtain ⟨hI1, w, x, li, e1, e2, e3, hc, hd⟩ := hbody j s s1 r hI ho
      obtain ⟨hx, hw⟩ := hlen s hI
      refine columns_d hlen hbody k (j + 1) (rs ++ [r]) s1 s' rs' hI1 (by rw [e3]; simpa using hl)
        (by simp [hr]) (by omega) ?_ h
      intro i hi
      rw [e1, e2, e3]
      by_cases hij : i = j
      · subst hij
        exact ⟨x, li, w, r, by rw [List.getElem?_set_self (by omega)], by rw [List.getElem?_set_self (by omega)],
          by rw [List.getElem?_set_self (by omega)], by rw [← hr]; simp, hc, hd⟩
      · rw [List.getElem?_set_ne (by omega), List.getElem?_set_ne (by omega), List.getElem?_set_ne (by omega),
          List.getElem?_append_left (by omega)]
        exact hg i (by omega)

theorem maxV_mem {N : Num (Ext K)} {rs : List (Ext K)} {t : Ext K} (h : maxV N rs = .ok t) : t ∈ rs := by
  cases rs with
  | nil => cases h
  | cons a l =>
    have key : ∀ (l : List (Ext K)) (a : Ext K), l.foldl (fun s b => if N.lt s b then b else s) a ∈ a :: l := by
      intro l
      induction l with
      | nil => intro a; simp
      | cons b l ih =>
        intro a
        rw [List.foldl_cons]
        have := ih (if N.lt a b then b else a)
        rcases List.mem_cons.mp this with h | h
        · rw [h]
          split <;> simp
        · exact List.mem_cons_of_mem _ (List.mem_cons_of_mem _ h)
    unfold maxV at h
    cases h
    exact key l a

/-- The state after `iter` iterations: the vectors are orthonormal Ritz vectors; the sum of their numbers has fallen by
`(c tol)² / 2D` in each iteration but the first; and if the directions are finite, one of them is that of a preconditioned
residual of at least the tolerance. -/
structure BInv (M : Matrix (Fin n) (Fin n) K) (T : (Fin n → K) → Fin n → K) (lo D c tol : K) (m iter : Nat) (s : St (Ext K)) : Prop where
  base : Base M 1 St.F m s
  ritz : 0 < iter → ∃ (v : Fin m → Fin n → K) (lam : Fin m → K), s.F.x = (List.ofFn fun i => vec Ext.fin (v i)) ∧
    (∀ i j, v i ⬝ᵥ v j = if i = j then 1 else 0) ∧ (∀ i j, v i ⬝ᵥ (M *ᵥ v j) = if i = j then lam i else 0) ∧
    ((iter : K) - 1) * (c * tol) ^ 2 ≤ 2 * D * (m * (lo + D) - ∑ i, lam i) ∧ 0 ≤ D ∧
    ∀ wv : Fin m → Fin n → K, s.F.w = (List.ofFn fun i => vec Ext.fin (wv i)) →
      ∃ (i : Fin m) (ρ : K), tol ≤ ρ ∧ 0 < ρ ∧ T (M *ᵥ v i - lam i • v i) = ρ • wv i ∧ wv i ⬝ᵥ wv i = 1

/-- what a pass leads to -/
def BPass (M : Matrix (Fin n) (Fin n) K) (T : (Fin n → K) → Fin n → K) (lo D c tol : K) (m iter : Nat) : Pass (Ext K) → Prop
  | .done o => o.status = SUCCESS ∨ o.status = RESIDUAL_NAN
  | .restart s' => BInv M T lo D c tol m iter s'
  | .next s' _ => BInv M T lo D c tol m (iter + 1) s'

section

variable {sq : K → K} (hsq : ∀ a, 0 ≤ a → sq a * sq a = a) (hsq0 : ∀ a, 0 ≤ a → 0 ≤ sq a) (hn : 0 < n)
  {A : Mat (Ext K)} (hA : IsMat A Ext.fin M) (hM : Mᵀ = M)
  {lo D : K} (hlo : ∀ v : Fin n → K, lo * (v ⬝ᵥ v) ≤ v ⬝ᵥ (M *ᵥ v))
  (hhi : ∀ v : Fin n → K, v ⬝ᵥ (M *ᵥ v) ≤ (lo + D) * (v ⬝ᵥ v))
  {L : Lib (Ext K)} (hL : Dsygvd L) {cfg : Cfg (Ext K)} {tol : K} (htol : cfg.tol = .fin tol)
  (htol0 : 0 < tol) (hmin : cfg.miniter = 0)

section

variable {pc : List (Ext K) → Res (List (Ext K))} {T : (Fin n → K) → Fin n → K} (hpc : PcIs pc T)
  {c : K} (hc0 : 0 < c) (hcT : ∀ v : Fin n → K, c * (T v ⬝ᵥ T v) ≤ v ⬝ᵥ T v)

include hsq hsq0 hn hA hM hlo hhi hL htol htol0 hmin hpc hc0 hcT

theorem passWith_block {m iter k : Nat} (hk2 : 2 * m ≤ k) (hk3 : k ≤ 3 * m) {lb ub : Int}
    (hlb : lb = 2 * (k : Int) - m) (hub : ub = 2 * (k : Int))
    (hquiet : ∀ a b : List (Ext K), ¬ Ignored m k (L.sygvd 1 true false k a k b k).2.2.2)
    {s : St (Ext K)} (hs : BInv M T lo D c tol m iter s) {p : Pass (Ext K)}
    (h : passWith (Ext.num sq) L cfg m iter k lb ub (fun s => s.F.rows)
      (fun k S prev => column (Ext.num sq) A pc m n k S iter prev) s = .ok p) :
    BPass M T lo D c tol m iter p := by
  unfold passWith at h
  dsimp only at h
  generalize hr : L.sygvd 1 true false k (gram (Ext.num sq) (s.G.rows.take k) (s.F.rows.take k)) k
    (gram (Ext.num sq) (s.F.rows.take k) (s.F.rows.take k)) k = r at h
  have hs1 : Inv0 M 1 St.F m { s with lam := overwrite s.lam r.2.2.1 } := ⟨hs.base.inv.im, hs.base.inv.iq⟩
  split at h
  · cases h
    exact ⟨⟨hs1, hs.base.l⟩, hs.ritz⟩
  · split at h
    · cases h
    · rename_i hI1 hI2
      have hinfo : r.2.2.2 = 0 := by
        have := hquiet (gram (Ext.num sq) (s.G.rows.take k) (s.F.rows.take k))
          (gram (Ext.num sq) (s.F.rows.take k) (s.F.rows.take k))
        rw [hr] at this
        unfold Ignored at this
        by_contra hne
        rw [hlb, hub] at hI1
        exact this ⟨hne, by
          by_contra hlt
          exact hI2 ⟨hne, by omega⟩, hI1⟩
      obtain ⟨cs, hc, h⟩ := Res.bind_eq_ok.mp h
      cases cs with
      | inl o =>
        cases h
        exact .inr (columns_inl_nan (fun i z o hh => column_inl hh) _ _ _ hc)
      | inr q =>
        obtain ⟨s', rs⟩ := q
        obtain ⟨resid, hmax, h⟩ := Res.bind_eq_ok.mp h
        rw [List.range_eq_range'] at hc
        have hm : 0 < m := by
          by_contra h0
          have : m = 0 := by omega
          subst this
          simp only [List.range'_zero, columns] at hc
          cases hc
          cases hmax
        obtain ⟨⟨hI, -⟩, hl, hrl, hg⟩ := columns_d
          (Inv := fun z => Inv0 M 1 St.F m z ∧ z.lam = overwrite s.lam r.2.2.1)
          (C := fun i x li => ColC sq n m k r.1 s.F (overwrite s.lam r.2.2.1) i x li) (D := ColD M T) (m := m)
          (fun z hz => ⟨hz.1.im.x.l1, hz.1.im.w.l1⟩)
          (by
            intro i z z' q hz hb
            obtain ⟨w, x, p, W, X, P, li, rfl, ⟨h1, h2, h3⟩, h4, h5⟩ := column_d hsq hsq0 hn hpc hA.mv hs1.im hb
            rw [hz.2] at h4
            have hput := hz.1.im.put (i := i) h1 h2 h3
            exact ⟨⟨⟨hput, hput.self⟩, hz.2⟩, w, x, li, rfl, rfl, rfl, h4, h5⟩) m 0 [] _ s' rs ⟨hs1, rfl⟩ hs.base.l rfl
          (by omega) (by intro i hi; omega) hc
        split at h
        · cases h
          exact .inl rfl
        · rename_i hnot
          cases h
          refine ⟨⟨hI, hl⟩, fun _ => ?_⟩
          -- the vectors are finite and have length 1
          have hunit : ∀ i : Fin m, ∃ v : Fin n → K, s'.F.x[(i : Nat)]? = some (vec Ext.fin v) ∧ v ⬝ᵥ v = 1 := by
            intro i
            obtain ⟨x, li, w, q, e1, -, -, -, -, v, e5, e6, -⟩ := hg i i.2
            exact ⟨v, by rw [e1, e5], e6⟩
          choose v hv hvv using hunit
          have hxs : s'.F.x = List.ofFn fun i => vec Ext.fin (v i) := by
            have := take_ofFn (rows := s'.F.x) (k := m) (g := fun i => vec Ext.fin (v i)) hv
            rwa [List.take_of_length_le (by rw [hI.im.x.l1])] at this
          have hC : ∀ i, i < m → ∃ x li, s'.F.x[i]? = some x ∧ s'.l[i]? = some li ∧
              ColC sq n m k r.1 s.F (overwrite s.lam r.2.2.1) i x li := by
            intro i hi
            obtain ⟨x, li, w, q, e1, e2, -, -, e5, -⟩ := hg i hi
            exact ⟨x, li, e1, e2, e5⟩
          rw [← hr] at hinfo hC
          obtain ⟨lam, hlam, hritz, -⟩ := ritz_of sq hn hM (Matrix.transpose_one) hL hm hk2 hk3 hs.base.inv hinfo hl hC hxs
          obtain ⟨lam', wv, v0, hlam', hwv, hv0, htrace⟩ :=
            trace_of sq hn hM (Matrix.transpose_one) hL hm hk2 hk3 hs.base.inv hinfo hC hxs
          have hll : lam' = lam := by
            funext i
            have h1 := hlam' i
            rw [hlam] at h1
            simp at h1
            exact h1.symm
          subst hll
          have horth : ∀ i j, v i ⬝ᵥ v j = if i = j then 1 else 0 := by
            intro i j
            by_cases hij : i = j
            · subst hij; rw [if_pos rfl, hvv]
            · rw [if_neg hij]
              have := (hritz.orth i j hij).1
              rwa [Matrix.one_mulVec] at this
          have hquot : ∀ i j, v i ⬝ᵥ (M *ᵥ v j) = if i = j then lam' i else 0 := by
            intro i j
            by_cases hij : i = j
            · subst hij
              have := hritz.quot i
              rw [Matrix.one_mulVec, hvv, mul_one] at this
              rw [if_pos rfl, this]
            · rw [if_neg hij]
              exact (hritz.orth i j hij).2
          have hD0 : 0 ≤ D := by
            have h1 := hlo (v ⟨0, hm⟩)
            have h2 := hhi (v ⟨0, hm⟩)
            rw [hvv] at h1 h2
            linarith
          refine ⟨v, lam', hxs, horth, hquot, ?_, hD0, ?_⟩
          · rcases Nat.eq_zero_or_pos iter with h0 | hpos
            · subst h0
              have hle : ∑ i, lam' i ≤ m * (lo + D) := by
                have : ∀ i, lam' i ≤ lo + D := by
                  intro i
                  have h1 := hhi (v i)
                  rw [hvv, mul_one, hquot, if_pos rfl] at h1
                  exact h1
                calc ∑ i, lam' i ≤ ∑ _i : Fin m, (lo + D) := Finset.sum_le_sum fun i _ => this i
                  _ = m * (lo + D) := by rw [Finset.sum_const, Finset.card_univ, Fintype.card_fin, nsmul_eq_mul]
              have := mul_nonneg (mul_nonneg (by norm_num : (0 : K) ≤ 2) hD0) (sub_nonneg.mpr hle)
              simpa using this
            · obtain ⟨v1, lam1, hx1, ho1, hq1, hb1, -, hw1⟩ := hs.ritz hpos
              have hvv1 : v1 = v0 := by
                funext i
                have h1 := congrArg (fun l => l[(i : Nat)]?) (hx1.symm.trans hv0)
                simp only [List.getElem?_ofFn, i.2, dif_pos] at h1
                exact vec_inj (Option.some.inj h1)
              subst hvv1
              obtain ⟨i, ρ, hρ, hρ0, hres, huu⟩ := hw1 wv hwv
              have hβ : c * tol ≤ wv i ⬝ᵥ (M *ᵥ v1 i - lam1 i • v1 i) := by
                have h1 := hcT (M *ᵥ v1 i - lam1 i • v1 i)
                rw [hres, smul_dotProduct, dotProduct_smul, dotProduct_smul, huu, smul_eq_mul, smul_eq_mul, smul_eq_mul,
                  mul_one, dotProduct_comm _ (wv i)] at h1
                have h2 : ρ * (c * ρ) ≤ ρ * (wv i ⬝ᵥ (M *ᵥ v1 i - lam1 i • v1 i)) := by linarith
                have h3 := le_of_mul_le_mul_left h2 hρ0
                have h4 := mul_le_mul_of_nonneg_left hρ hc0.le
                linarith
              obtain ⟨hDp, hdec⟩ := Ritz.block_decrease hsq hsq0 hM hlo hhi ho1 hq1 huu hβ (mul_pos hc0 htol0)
                (S := ∑ j, lam' j) (by
                intro y hy hyo
                exact htrace i y hy (by intro a b; rw [Matrix.one_mulVec]; exact hyo a b))
              have h2 : 2 * D * ∑ j, lam' j ≤ 2 * D * (∑ j, lam1 j) - (c * tol) ^ 2 := by
                have := mul_le_mul_of_nonneg_left hdec (by linarith : (0 : K) ≤ 2 * D)
                rw [mul_sub, mul_div_cancel₀ _ (by linarith : (2 * D : K) ≠ 0)] at this
                exact this
              push_cast
              have e1 : ((iter : K) + 1 - 1) * (c * tol) ^ 2 = ((iter : K) - 1) * (c * tol) ^ 2 + (c * tol) ^ 2 := by ring
              rw [e1, mul_sub]
              rw [mul_sub] at hb1
              linarith
          · intro wv' hwv'
            have hmem := maxV_mem hmax
            obtain ⟨i, hi, he⟩ := List.getElem_of_mem hmem
            have him : i < m := by omega
            obtain ⟨x, li, w, q, e1, e2, e3, e4, -, v2, e5, -, e7⟩ := hg i him
            have hli : li = .fin (lam' ⟨i, him⟩) := by
              rw [hlam' ⟨i, him⟩] at e2
              cases e2
              rfl
            have hwi : w = vec Ext.fin (wv' ⟨i, him⟩) := by
              rw [hwv'] at e3
              simp [him] at e3
              exact e3.symm
            have hv2 : v2 = v ⟨i, him⟩ := by
              have := hv ⟨i, him⟩
              simp only at this
              rw [e1, e5] at this
              exact vec_inj (Option.some.inj this)
            obtain ⟨ρ, hq, hρ0, hres, huu⟩ := e7 _ _ hli hwi
            have hqr : q = resid := by
              rw [List.getElem?_eq_getElem hi, he] at e4
              exact (Option.some.inj e4).symm
            refine ⟨⟨i, him⟩, ρ, ?_, hρ0, by rw [← hv2]; exact hres, huu⟩
            by_contra hlt
            apply hnot
            refine ⟨?_, by omega⟩
            rw [← hqr, hq, htol]
            show decide (ρ < tol) = true
            simpa using hlt

theorem pass_block {m iter : Nat} {singular : Bool} {s : St (Ext K)} (hs : BInv M T lo D c tol m iter s) {p : Pass (Ext K)}
    (h : pass (Ext.num sq) (loud m L) cfg m iter singular (fun s => s.F.rows)
      (fun k S prev => column (Ext.num sq) A pc m n k S iter prev) s = .ok p) :
    BPass M T lo D c tol m iter p := by
  unfold pass at h
  split at h
  · exact passWith_block hsq hsq0 hn hA hM hlo hhi (loud_ok m hL) htol htol0 hmin hpc hc0 hcT (by omega) (by omega)
      (by push_cast; omega) (by push_cast; omega) (fun a b => loud_quiet m _ L a b) hs h
  · exact passWith_block hsq hsq0 hn hA hM hlo hhi (loud_ok m hL) htol htol0 hmin hpc hc0 hcT (by omega) (by omega)
      (by push_cast; omega) (by push_cast; omega) (fun a b => loud_quiet m _ L a b) hs h

theorem loop_block {m : Nat} (hmax : 2 * m * D ^ 2 < ((cfg.maxiter : K) - 1) * (c * tol) ^ 2) :
    ∀ (fuel iter : Nat) (singular : Bool) (resid : Ext K) (s : St (Ext K)) (o : Out (Ext K)), BInv M T lo D c tol m iter s →
    loop cfg (fun iter singular s => pass (Ext.num sq) (loud m L) cfg m iter singular (fun s => s.F.rows)
      (fun k S prev => column (Ext.num sq) A pc m n k S iter prev) s) fuel iter singular resid s =
        some (.ok o) → o.status = SUCCESS ∨ o.status = RESIDUAL_NAN := by
  intro fuel
  induction fuel with
  | zero => intro iter singular resid s o _ h; cases h
  | succ fuel ih =>
    intro iter singular resid s o hs h
    unfold loop at h
    split at h
    · split at h
      · rename_i o' hP
        cases h
        exact pass_block hsq hsq0 hn hA hM hlo hhi hL htol htol0 hmin hpc hc0 hcT hs hP
      · rename_i s' hP
        exact ih _ _ _ s' o (pass_block hsq hsq0 hn hA hM hlo hhi hL htol htol0 hmin hpc hc0 hcT hs hP) h
      · rename_i s' r' hP
        exact ih _ _ _ s' o (pass_block hsq hsq0 hn hA hM hlo hhi hL htol htol0 hmin hpc hc0 hcT hs hP) h
      all_goals cases h
    · rename_i hge
      exfalso
      have ht2 : 0 < (c * tol) ^ 2 := by positivity
      have hnn : (0 : K) ≤ 2 * m * D ^ 2 := by positivity
      have h1 : (0 : K) < (cfg.maxiter : K) - 1 := by
        by_contra hneg
        have := mul_nonpos_of_nonpos_of_nonneg (not_lt.mp hneg) ht2.le
        linarith
      have hpos : 0 < cfg.maxiter := by
        have : (0 : K) < cfg.maxiter := by linarith
        exact_mod_cast this
      obtain ⟨v, lam, -, ho, hq, hb, hD0, -⟩ := hs.ritz (by omega)
      have hle : (m : K) * lo ≤ ∑ i, lam i := by
        have : ∀ i, lo ≤ lam i := by
          intro i
          have h1 := hlo (v i)
          rw [ho, hq, if_pos rfl, if_pos rfl, mul_one] at h1
          exact h1
        calc (m : K) * lo = ∑ _i : Fin m, lo := by simp
          _ ≤ _ := Finset.sum_le_sum fun i _ => this i
      have hit : (cfg.maxiter : K) ≤ iter := by exact_mod_cast (by omega : cfg.maxiter ≤ iter)
      have h2 : ((cfg.maxiter : K) - 1) * (c * tol) ^ 2 ≤ ((iter : K) - 1) * (c * tol) ^ 2 :=
        mul_le_mul_of_nonneg_right (by linarith) ht2.le
      have h3 : 2 * D * (m * (lo + D) - ∑ i, lam i) ≤ 2 * D * (m * D) :=
        mul_le_mul_of_nonneg_left (by linarith) (by linarith)
      have h4 : 2 * D * ((m : K) * D) = 2 * m * D ^ 2 := by ring
      linarith

/-- **C120** for any number of vectors, any start vectors and any preconditioner that is a map `T` on finite vectors with
`c ‖T v‖² ≤ v · T v` (and hides no NaN): once `(maxiter - 1) (c tol)² > 2 m D²`, LOBPCG does not run out of iterations: if it
returns, then with success or because a residual is NaN, provided LAPACK reports no error that the solver ignores. (It can be
NaN, and an error can be ignored: `C120_eigenvector_violated`, `C119_not_without_error`.) -/
theorem C120_precond_partial {l : List (Ext K)} {xin : List (List (Ext K))} {xcol : Nat} {rs : Option (List (List (Ext K)))}
    (hrs : ∀ r, rs = some r → l.length ≤ r.length)
    (hmax : 2 * l.length * D ^ 2 < ((cfg.maxiter : K) - 1) * (c * tol) ^ 2) {fuel : Nat} {out : Out (Ext K)}
    (h : standard (Ext.num sq) L cfg A (.ok pc) l xin xcol rs fuel = some (.ok out))
    (hheard : standard (Ext.num sq) (loud l.length L) cfg A (.ok pc) l xin xcol rs fuel ≠
      some (.throw "internal LAPACK sygvd returned error")) :
    out.status = SUCCESS ∨ out.status = RESIDUAL_NAN := by
  have h : standard (Ext.num sq) (loud l.length L) cfg A (.ok pc) l xin xcol rs fuel = some (.ok out) := by
    rcases standard_loud (Ext.num sq) L cfg A (.ok pc) l xin xcol rs fuel with e | e
    · rw [e]; exact h
    · exact absurd e hheard
  obtain ⟨pc', s, hrun, hI, hpc'⟩ := standard_init hn hA hrs h
  rw [hrun] at h
  cases hpc'
  exact loop_block hsq hsq0 hn hA hM hlo hhi hL htol htol0 hmin hpc hc0 hcT hmax fuel 0 false _ s out
    ⟨hI.base, fun h0 => absurd h0 (by omega)⟩ h

end

include hsq hsq0 hn hA hM hlo hhi hL htol htol0 hmin

/-- **C120** for any number of vectors, any start vectors, no preconditioner: `(maxiter - 1) tol² > 2 m D²`. -/
theorem C120_block_partial {l : List (Ext K)} {xin : List (List (Ext K))} {xcol : Nat} {rs : Option (List (List (Ext K)))}
    (hrs : ∀ r, rs = some r → l.length ≤ r.length)
    (hmax : 2 * l.length * D ^ 2 < ((cfg.maxiter : K) - 1) * tol ^ 2) {fuel : Nat} {out : Out (Ext K)}
    (h : standard (Ext.num sq) L cfg A noPrecond l xin xcol rs fuel = some (.ok out))
    (hheard : standard (Ext.num sq) (loud l.length L) cfg A noPrecond l xin xcol rs fuel ≠
      some (.throw "internal LAPACK sygvd returned error")) :
    out.status = SUCCESS ∨ out.status = RESIDUAL_NAN :=
  C120_precond_partial hsq hsq0 hn hA hM hlo hhi hL htol htol0 hmin pcIs_none (c := 1) one_pos
    (by intro v; rw [one_mul]; exact le_refl _) hrs (by rw [one_mul]; exact hmax) h hheard

end

end Verif.Lobpcg
