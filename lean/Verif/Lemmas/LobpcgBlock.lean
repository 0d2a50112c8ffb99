import Verif.Lemmas.KyFan
import Verif.Props.LobpcgImproves
import Verif.Lemmas.LobpcgOne
import Verif.Props.SolverOp

/-! C120, several vectors: one step of LOBPCG lowers the sum of the numbers. -/

namespace Verif.Lobpcg

open Spec Solver Lapack Matrix

variable {K : Type} [Field K] [LinearOrder K] [IsStrictOrderedRing K] {n : Nat} {M Q : Matrix (Fin n) (Fin n) K}

theorem rows_w {m : Nat} {f : Fam (Ext K)} (hw : f.w.length = m) {a : Nat} (ha : a < m) :
    f.rows.getD a [] = f.w.getD a [] := by
  unfold Fam.rows
  rw [List.getD, List.getElem?_append_left (by rw [List.length_append, hw]; omega),
    List.getElem?_append_left (by rw [hw]; omega)]
  rfl

theorem rows_x {m : Nat} {f : Fam (Ext K)} (hw : f.w.length = m) (hx : f.x.length = m) {a : Nat} (ha : a < m) :
    f.rows.getD (m + a) [] = f.x.getD a [] := by
  unfold Fam.rows
  rw [List.getD, List.getElem?_append_left (by rw [List.length_append, hw, hx]; omega),
    List.getElem?_append_right (by rw [hw]; omega), hw, Nat.add_sub_cancel_left]
  rfl

theorem block_ofFn {m : Nat} {l : List (List (Ext K))} (hl : l.length = m) (h : ∀ j, j < m → FinRow n l j) :
    l = List.ofFn fun i : Fin m => vec Ext.fin (vval n (l.getD i [])) := by
  have := take_ofFn (rows := l) (k := m) (g := fun i : Fin m => vec Ext.fin (vval n (l.getD i []))) (fun a => h a a.2)
  rwa [← hl, List.take_length, hl] at this

/-- One iteration: if LAPACK succeeds and the new vectors are finite, the sum of the new numbers is the least sum of
quotients of orthonormal vectors in the span of `w_i` and the old vectors. -/
theorem trace_of (sq : K → K) (hn : 0 < n) (hM : Mᵀ = M) (hQ : Qᵀ = Q) {L : Lib (Ext K)} (hL : Dsygvd L)
    {hf : St (Ext K) → Fam (Ext K)} {m k : Nat} (hm : 0 < m) (hk2 : 2 * m ≤ k) (hk3 : k ≤ 3 * m)
    {s : St (Ext K)} (hs : Inv0 M Q hf m s) {lam0 : List (Ext K)}
    (hinfo : (L.sygvd 1 true false k (gram (Ext.num sq) (s.G.rows.take k) (s.F.rows.take k)) k
      (gram (Ext.num sq) ((hf s).rows.take k) (s.F.rows.take k)) k).2.2.2 = 0)
    {xs : List (List (Ext K))} {ls : List (Ext K)}
    (hC : ∀ i, i < m → ∃ x li, xs[i]? = some x ∧ ls[i]? = some li ∧ ColC sq n m k
      (L.sygvd 1 true false k (gram (Ext.num sq) (s.G.rows.take k) (s.F.rows.take k)) k
        (gram (Ext.num sq) ((hf s).rows.take k) (s.F.rows.take k)) k).1 s.F
      (overwrite lam0 (L.sygvd 1 true false k (gram (Ext.num sq) (s.G.rows.take k) (s.F.rows.take k)) k
        (gram (Ext.num sq) ((hf s).rows.take k) (s.F.rows.take k)) k).2.2.1) i x li)
    {v : Fin m → Fin n → K} (hxs : xs = List.ofFn fun i => vec Ext.fin (v i)) :
    ∃ (lam : Fin m → K) (wv v0 : Fin m → Fin n → K), (∀ i : Fin m, ls[(i : Nat)]? = some (Ext.fin (lam i))) ∧
      (s.F.w = List.ofFn fun i => vec Ext.fin (wv i)) ∧ (s.F.x = List.ofFn fun i => vec Ext.fin (v0 i)) ∧
      ∀ (i : Fin m) (y : Fin m → Fin n → K), (∀ j, ∃ (c : K) (d : Fin m → K), y j = c • wv i + ∑ k, d k • v0 k) →
        (∀ a b, y a ⬝ᵥ (Q *ᵥ y b) = if a = b then 1 else 0) → ∑ j, lam j ≤ ∑ j, y j ⬝ᵥ (M *ᵥ y j) := by
  have hC' : ∀ i : Fin m, ∃ li, ls[(i : Nat)]? = some li ∧ ColC sq n m k
      (L.sygvd 1 true false k (gram (Ext.num sq) (s.G.rows.take k) (s.F.rows.take k)) k
        (gram (Ext.num sq) ((hf s).rows.take k) (s.F.rows.take k)) k).1 s.F
      (overwrite lam0 (L.sygvd 1 true false k (gram (Ext.num sq) (s.G.rows.take k) (s.F.rows.take k)) k
        (gram (Ext.num sq) ((hf s).rows.take k) (s.F.rows.take k)) k).2.2.1) i (vec Ext.fin (v i)) li := by
    intro i
    obtain ⟨x, li, h1, h2, h3⟩ := hC i i.2
    have : x = vec Ext.fin (v i) := by
      rw [hxs] at h1
      simp at h1
      exact h1.symm
    exact ⟨li, h2, this ▸ h3⟩
  have hfin : ∀ j, j < m → FinRow n s.F.w j ∧ FinRow n s.F.x j ∧ FinRow n s.F.p j := by
    obtain ⟨li, _, _, h3⟩ := hC' ⟨0, hm⟩
    obtain ⟨b, r, y, c, _, h5, h6, _⟩ := h3 _ rfl
    intro j hj
    exact ((combine_fin sq hn h5 h6).1 j hj).2
  obtain ⟨hF, hG⟩ := rows_finite hs.im hfin
  obtain ⟨_, hH⟩ := rows_finite hs.iq hfin
  let U : Fin k → Fin n → K := fun a => vval n (s.F.rows.getD a [])
  have tF : s.F.rows.take k = List.ofFn (fun a => vec Ext.fin (U a)) := take_ofFn fun a => hF a (by omega)
  have tG : s.G.rows.take k = List.ofFn (fun a => vec Ext.fin (M *ᵥ U a)) := take_ofFn fun a => hG a (by omega)
  have tH : (hf s).rows.take k = List.ofFn (fun a => vec Ext.fin (Q *ᵥ U a)) := take_ofFn fun a => hH a (by omega)
  rw [tF, tG, tH, gram_vec, gram_vec] at hC' hinfo
  obtain ⟨z, e, w, hz, hw, hok, hnorm⟩ := hL k _ _ (gramK_length _ _) (gramK_length _ _) hinfo
  rw [hz, hw] at hC'
  have hsol := solved_of hM hQ U hok hnorm
  have hwl : w.length = k := hok.wLength rfl
  refine ⟨fun i => w.getD i 0, fun i => vval n (s.F.w.getD i []), fun i => vval n (s.F.x.getD i []), ?_,
    block_ofFn hs.im.w.l1 fun j hj => (hfin j hj).1, block_ofFn hs.im.x.l1 fun j hj => (hfin j hj).2.1, ?_⟩
  · intro i
    obtain ⟨li, h1, h2, _⟩ := hC' i
    have hiw : (i : Nat) < w.length := by omega
    unfold overwrite at h2
    rw [List.getElem?_append_left (by rw [List.length_map]; exact hiw), List.getElem?_map,
      List.getElem?_eq_getElem hiw] at h2
    rw [h1, ← h2]
    simp [hiw]
  · intro i y hy ho
    choose c d hcd using hy
    have hrow : ∀ j, ((Pi.single (⟨i, by omega⟩ : Fin k) (c j) +
        ∑ t : Fin m, Pi.single (⟨m + t, by omega⟩ : Fin k) (d j t)) ᵥ* Matrix.of U) = y j := by
      intro j
      rw [hcd j, Matrix.add_vecMul, Matrix.single_vecMul, Matrix.sum_vecMul]
      have e1 : (Matrix.of U).row ⟨i, by omega⟩ = vval n (s.F.w.getD i []) := by
        show vval n (s.F.rows.getD i []) = _
        rw [rows_w hs.im.w.l1 i.2]
      have e2 : ∀ t : Fin m, (Pi.single (⟨m + t, by omega⟩ : Fin k) (d j t)) ᵥ* Matrix.of U =
          d j t • vval n (s.F.x.getD t []) := by
        intro t
        rw [Matrix.single_vecMul]
        have : (Matrix.of U).row ⟨m + t, by omega⟩ = vval n (s.F.x.getD t []) := by
          show vval n (s.F.rows.getD (m + t) []) = _
          rw [rows_x hs.im.w.l1 hs.im.x.l1 t.2]
        rw [this]
      rw [e1]
      simp only [e2]
    have := hsol.kyFan (m := m) (by omega)
      (fun j => Pi.single (⟨i, by omega⟩ : Fin k) (c j) + ∑ t : Fin m, Pi.single (⟨m + t, by omega⟩ : Fin k) (d j t))
      (by intro a b; rw [hrow, hrow]; exact ho a b)
    simp only [hrow] at this
    exact this

/-- a vector divided by its norm has length 1, or a NaN in it -/
theorem unit_or_nan {sq : K → K} (hsq : ∀ a, 0 ≤ a → sq a * sq a = a) (hn : 0 < n) {y : List (Ext K)} (hy : y.length = n) :
    (∃ v : Fin n → K, scal (Ext.num sq) ((Ext.num sq).div (Ext.num sq).one ((Ext.num sq).nrm2 y)) y = vec Ext.fin v ∧
      v ⬝ᵥ v = 1) ∨
    .nan ∈ scal (Ext.num sq) ((Ext.num sq).div (Ext.num sq).one ((Ext.num sq).nrm2 y)) y := by
  have E := Ext.exact sq
  have hone : (Ext.num sq).one = .fin 1 := rfl
  have hnan : ∀ b : Ext K, (∃ a ∈ y, Ext.mul b a = .nan) → .nan ∈ scal (Ext.num sq) b y := by
    rintro b ⟨a, ha, he⟩
    rw [← he]
    exact List.mem_map_of_mem ha
  have hne : y ≠ [] := by
    intro h
    rw [h] at hy
    simp at hy
    omega
  have hinf : (Ext.num sq).div (Ext.num sq).one ((Ext.num sq).nrm2 y) = .fin 0 →
      (∀ c : K, (Ext.num sq).nrm2 y ≠ .fin c) → ∃ a ∈ y, Ext.mul (.fin 0) a = .nan := by
    intro _ hc
    by_contra hcon
    push Not at hcon
    obtain ⟨v, hv⟩ := exists_vec hy (by
      intro a ha
      have := hcon a ha
      cases a with
      | fin c => exact ⟨c, rfl⟩
      | nan => exact absurd rfl this
      | pinf => simp [Ext.mul, Ext.scaleInf] at this
      | ninf => simp [Ext.mul, Ext.scaleInf] at this)
    rw [hv] at hc
    exact hc _ (nrm2_vec E v)
  cases hr : (Ext.num sq).nrm2 y with
  | nan =>
    right
    obtain ⟨a, ha⟩ := List.exists_mem_of_ne_nil _ hne
    exact hnan _ ⟨a, ha, rfl⟩
  | pinf =>
    right
    refine hnan _ ?_
    have := hinf (by rw [hr]; rfl) (by intro c h; rw [hr] at h; cases h)
    exact this
  | ninf =>
    right
    refine hnan _ ?_
    have := hinf (by rw [hr]; rfl) (by intro c h; rw [hr] at h; cases h)
    exact this
  | fin c =>
    obtain ⟨v, hv⟩ := nrm2_lt_fin sq hy (t := c + 1) (by
      rw [hr]
      show decide (c < c + 1) = true
      simp)
    subst hv
    rw [nrm2_vec E] at hr
    cases hr
    by_cases h0 : norm2 sq v = 0
    · right
      obtain ⟨a, ha⟩ := List.exists_mem_of_ne_nil _ hne
      refine hnan _ ⟨a, ha, ?_⟩
      have hv0 : v = 0 := by
        by_contra hv0
        have h1 := hsq _ (dot_nonneg v)
        have h2 := dot_pos hv0
        unfold norm2 at h0
        rw [h0, mul_zero] at h1
        exact absurd h1 h2.ne
      obtain ⟨i, hi⟩ := (List.mem_ofFn' _ _).mp ha
      rw [← hi, h0, hv0]
      show Ext.mul (Ext.div (.fin 1) (.fin 0)) (.fin 0) = .nan
      simp [Ext.div, Ext.mul, Ext.scaleInf]
    · left
      refine ⟨(1 / norm2 sq v) • v, ?_, unit_smul hsq h0⟩
      rw [hone, E.div _ _ h0, scal_vec]

/-- a preconditioner that is `T` on finite vectors and never hides a NaN -/
structure PcIs (pc : List (Ext K) → Res (List (Ext K))) (T : (Fin n → K) → Fin n → K) : Prop where
  fin : ∀ v : Fin n → K, pc (vec Ext.fin v) = .ok (vec Ext.fin (T v))
  nan : ∀ w w', w.length = n → Ext.nan ∈ w → pc w = .ok w' → Ext.nan ∈ w'

omit [LinearOrder K] [IsStrictOrderedRing K] in
theorem pcIs_none : PcIs (K := K) (n := n) (fun r => .ok r) id :=
  ⟨fun _ => rfl, fun w w' _ h e => by cases e; exact h⟩

/-- what a column is worth: the vector has length 1; and if the new direction is finite, it is that of the
preconditioned residual, whose norm is what the column reports -/
def ColD (M : Matrix (Fin n) (Fin n) K) (T : (Fin n → K) → Fin n → K) (x : List (Ext K)) (li : Ext K) (w : List (Ext K)) (r : Ext K) : Prop :=
  ∃ v : Fin n → K, x = vec Ext.fin v ∧ v ⬝ᵥ v = 1 ∧ ∀ (lam : K) (u : Fin n → K), li = .fin lam → w = vec Ext.fin u →
    ∃ ρ : K, r = .fin ρ ∧ 0 < ρ ∧ T (M *ᵥ v - lam • v) = ρ • u ∧ u ⬝ᵥ u = 1

theorem column_d {sq : K → K} (hsq : ∀ a, 0 ≤ a → sq a * sq a = a) (hsq0 : ∀ a, 0 ≤ a → 0 ≤ sq a) (hn : 0 < n)
    {pc : List (Ext K) → Res (List (Ext K))} {T : (Fin n → K) → Fin n → K} (hpc : PcIs pc T)
    {A : Mat (Ext K)} (hA : ∀ v, A.mv (vec Ext.fin v) = .ok (vec Ext.fin (M *ᵥ v)))
    {m k iter i : Nat} {S : List (Ext K)}
    {prev s : St (Ext K)} (hp : SFam M m prev.F prev.G) {s' : St (Ext K)} {r : Ext K}
    (h : column (Ext.num sq) A pc m n k S iter prev i s = .ok (.inr (s', r))) :
    ∃ w x p W X P li, s' = { s with F := s.F.put i w x p, G := s.G.put i W X P, l := s.l.set i li } ∧
      (SRel M w W ∧ SRel M x X ∧ SRel M p P) ∧ ColC sq n m k S prev.F s.lam i x li ∧ ColD M T x li w r := by
  have E := Ext.exact sq
  unfold column at h
  obtain ⟨li, hli, h⟩ := Res.bind_eq_ok.mp h
  obtain ⟨l', hl', h⟩ := Res.bind_eq_ok.mp h
  obtain ⟨b, hb, h⟩ := Res.bind_eq_ok.mp h
  obtain ⟨px, hpx, h⟩ := Res.bind_eq_ok.mp h
  obtain ⟨PX, hPX, h⟩ := Res.bind_eq_ok.mp h
  obtain ⟨w, hw, h⟩ := Res.bind_eq_ok.mp h
  obtain ⟨wp, hwp, h⟩ := Res.bind_eq_ok.mp h
  obtain ⟨r1, r2⟩ := combine_srel sq hn hp hpx hPX
  by_cases hnan : (Ext.num sq).isNaN ((Ext.num sq).nrm2 wp) = true
  · rw [if_pos hnan] at h; cases h
  · rw [if_neg hnan] at h
    obtain ⟨W, hW, h⟩ := Res.bind_eq_ok.mp h
    cases h
    have r2' := r2.scal sq hn (a := (Ext.num sq).div (Ext.num sq).one ((Ext.num sq).nrm2 px.2))
    refine ⟨_, _, _, W, _, _, li, by rw [wr_eq_ok hl'], ⟨srel_mvInto hA hW, r2', r1.scal sq hn⟩, ⟨rd_eq_ok.mp hli, ?_⟩, ?_⟩
    · intro v hv
      obtain ⟨u, c, hu, hc, hvu⟩ := scaled sq hn hv
      exact ⟨b, px, u, c, hb, hpx, hu, hc, hvu⟩
    · have hw' := hw
      unfold Num.axpyz at hw'
      obtain ⟨_, hc1, hw'⟩ := Res.bind_eq_ok.mp hw'
      have hlen := Solver.of_cassert hc1
      have hy : px.2.length = n := by
        have := hlen.2
        simpa [scal] using this
      rcases unit_or_nan hsq hn hy with ⟨v, hv, hvv⟩ | hbad
      · refine ⟨v, hv, hvv, ?_⟩
        intro lam u hlam hu
        rw [hv, r2' v hv, hlam] at hw
        have hneg : (Ext.num sq).neg (.fin lam) = .fin (-lam) := rfl
        rw [axpyz_neg_vec E] at hw
        cases hw
        rw [hpc.fin] at hwp
        cases hwp
        rw [nrm2_vec E] at hu ⊢
        have hone : (Ext.num sq).one = .fin 1 := rfl
        have h0 : norm2 sq (T (M *ᵥ v - lam • v)) ≠ 0 := by
          intro h0
          obtain ⟨c', xv, hc', -, -⟩ := scal_fin sq hn hu
          rw [h0, hone] at hc'
          have : Ext.div (Ext.fin (1 : K)) (.fin 0) = .fin c' := hc'
          simp [Ext.div] at this
        refine ⟨_, rfl, lt_of_le_of_ne (hsq0 _ (dot_nonneg _)) (Ne.symm h0), ?_, ?_⟩
        · rw [hone, E.div _ _ h0, scal_vec] at hu
          have := vec_inj hu
          rw [← this, smul_smul, mul_one_div_cancel h0, one_smul]
        · rw [hone, E.div _ _ h0, scal_vec] at hu
          have := vec_inj hu
          rw [← this]
          exact unit_smul hsq h0
      · exfalso
        apply hnan
        have hwn : .nan ∈ w := by
          cases hw'
          obtain ⟨j, hj, he⟩ := List.getElem_of_mem hbad
          refine List.mem_of_getElem (i := j) (h := by rw [List.length_zipWith, ← hlen.1]; simpa using hj) ?_
          rw [List.getElem_zipWith, he]
          show Ext.add (Ext.mul _ .nan) _ = .nan
          rw [Ext.mul_nan, Ext.nan_add]
        have hwl : w.length = n := by
          cases hw'
          rw [List.length_zipWith, ← hlen.1, hlen.2]; omega
        rw [Ext.nrm2_nan sq wp (hpc.nan _ _ hwl hwn hwp)]
        rfl

end Verif.Lobpcg
