import Verif.Lemmas.LobpcgGram

/-! LOBPCG as a Rayleigh-Ritz procedure: one iteration. -/

namespace Verif.Lobpcg

open Spec Solver Lapack Matrix

variable {K : Type} [Field K] [LinearOrder K] [IsStrictOrderedRing K] {n : Nat} {M Q : Matrix (Fin n) (Fin n) K}

/-- number `i` is taken from `lam`, and vector `i` is a multiple of the combination with the coefficients of row `i`
of `S` -/
def ColC (sq : K → K) (n m k : Nat) (S : List (Ext K)) (f : Fam (Ext K)) (lam : List (Ext K)) (i : Nat)
    (x : List (Ext K)) (li : Ext K) : Prop :=
  lam[i]? = some li ∧ ∀ v : Fin n → K, x = vec Ext.fin v →
    ∃ (b : List (Ext K)) (r : List (Ext K) × List (Ext K)) (y : Fin n → K) (c : K),
      coeffs (Ext.num sq) m k S i = .ok b ∧
      combine (Ext.num sq) m b f (List.replicate n (.fin 0)) = .ok r ∧ r.2 = vec Ext.fin y ∧ c ≠ 0 ∧ v = c • y

theorem scaled (sq : K → K) (hn : 0 < n) {y : List (Ext K)} {v : Fin n → K}
    (hv : scal (Ext.num sq) ((Ext.num sq).div (Ext.num sq).one ((Ext.num sq).nrm2 y)) y = vec Ext.fin v) :
    ∃ (u : Fin n → K) (c : K), y = vec Ext.fin u ∧ c ≠ 0 ∧ v = c • u := by
  obtain ⟨c, u, hc, hu, hvu⟩ := scal_fin sq hn hv
  refine ⟨u, c, hu, ?_, hvu⟩
  rw [hu, Solver.nrm2_vec (Ext.exact sq)] at hc
  have hc : Ext.div (Ext.fin 1) (Ext.fin (norm2 sq u)) = Ext.fin c := hc
  by_cases h0 : norm2 sq u = 0
  · rw [h0] at hc
    simp [Ext.div] at hc
  · simp only [Ext.div, h0, if_false] at hc
    have hc := Ext.fin.inj hc
    rw [← hc]
    exact one_div_ne_zero h0

omit [LinearOrder K] [IsStrictOrderedRing K] in
theorem form_apply {k : Nat} (M : Matrix (Fin n) (Fin n) K) (Y : Matrix (Fin k) (Fin n) K) (i j : Fin k) :
    Y i ⬝ᵥ (M *ᵥ Y j) = (Y * M * Yᵀ) i j := by
  rw [Matrix.mul_assoc, Matrix.mul_apply_eq_vecMul, ← Matrix.vecMul_vecMul, Matrix.dotProduct_mulVec]
  rfl

omit [LinearOrder K] [IsStrictOrderedRing K] in
theorem form_smul (M : Matrix (Fin n) (Fin n) K) (c d : K) (u v : Fin n → K) :
    (c • u) ⬝ᵥ (M *ᵥ (d • v)) = c * d * (u ⬝ᵥ (M *ᵥ v)) := by
  rw [Matrix.mulVec_smul, smul_dotProduct, dotProduct_smul, smul_eq_mul, smul_eq_mul, mul_assoc]

omit [IsStrictOrderedRing K] in
theorem coeffs_val (sq : K → K) {m k i : Nat} (hk : k ≤ 3 * m) (hi : i < k) {z : List K} (hz : z.length = k * k) {b : List (Ext K)}
    (hb : coeffs (Ext.num sq) m k (z.map Ext.fin) i = .ok b) (a : Nat) (ha : a < 3 * m) :
    val (b.getD a (.fin 0)) = if a < k then cm z k a i else 0 := by
  unfold coeffs at hb
  obtain ⟨b', hb', hb⟩ := Res.bind_eq_ok.mp hb
  injection hb with hb
  subst hb
  unfold rowOf at hb'
  have hle : i * k + k ≤ (z.map (Ext.fin : K → Ext K)).length := by
    rw [List.length_map, hz]
    calc i * k + k = (i + 1) * k := by ring
      _ ≤ k * k := Nat.mul_le_mul_right _ hi
  rw [if_pos hle] at hb'
  injection hb' with hb'
  subst hb'
  have hl : (((z.map (Ext.fin : K → Ext K)).drop (i * k)).take k).length = k := by
    rw [List.length_take, List.length_drop]; omega
  split
  · rename_i hak
    have hp : i * k + a < z.length := by rw [List.length_map] at hle; omega
    have hp' : a + k * i < z.length := by rw [mul_comm, add_comm]; exact hp
    rw [List.getD, List.getElem?_append_left (by rw [hl]; exact hak), List.getElem?_take_of_lt hak,
      List.getElem?_drop, List.getElem?_map, List.getElem?_eq_getElem hp, cm, List.getD,
      List.getElem?_eq_getElem hp']
    have : i * k + a = a + k * i := by rw [mul_comm, add_comm]
    simp only [this]
    rfl
  · rename_i hak
    rw [List.getD, List.getElem?_append_right (by rw [hl]; omega), hl, List.getElem?_replicate, if_pos (by omega)]
    rfl

/-- the data carried along: the images under `M` and `Q` -/
structure Inv0 (M Q : Matrix (Fin n) (Fin n) K) (hf : St (Ext K) → Fam (Ext K)) (m : Nat) (s : St (Ext K)) : Prop where
  im : SFam M m s.F s.G
  iq : SFam Q m s.F (hf s)

omit [IsStrictOrderedRing K] in
theorem rows_finite {m : Nat} {f g : Fam (Ext K)} (h : SFam M m f g)
    (hfin : ∀ j, j < m → FinRow n f.w j ∧ FinRow n f.x j ∧ FinRow n f.p j) :
    (∀ a, a < m + m + m → f.rows[a]? = some (vec Ext.fin (vval n (f.rows.getD a [])))) ∧
      ∀ a, a < m + m + m → g.rows[a]? = some (vec Ext.fin (M *ᵥ vval n (f.rows.getD a []))) := by
  have h1 : ∀ a, a < m + m + m → f.rows[a]? = some (vec Ext.fin (vval n (f.rows.getD a []))) := by
    intro a ha
    have key : ∃ v : Fin n → K, f.rows[a]? = some (vec Ext.fin v) := by
      unfold Fam.rows
      by_cases c1 : a < m
      · rw [List.getElem?_append_left (by rw [List.length_append, h.w.l1, h.x.l1]; omega),
          List.getElem?_append_left (by rw [h.w.l1]; omega)]
        exact ⟨_, (hfin a c1).1⟩
      · by_cases c2 : a < m + m
        · rw [List.getElem?_append_left (by rw [List.length_append, h.w.l1, h.x.l1]; omega),
            List.getElem?_append_right (by rw [h.w.l1]; omega), h.w.l1]
          exact ⟨_, (hfin (a - m) (by omega)).2.1⟩
        · rw [List.getElem?_append_right (by rw [List.length_append, h.w.l1, h.x.l1]; omega), List.length_append,
            h.w.l1, h.x.l1]
          exact ⟨_, (hfin (a - (m + m)) (by omega)).2.2⟩
    obtain ⟨v, hv⟩ := key
    exact (FinRow.of hv).1
  refine ⟨h1, ?_⟩
  intro a ha
  have hr := h.rows
  have hlt : a < g.rows.length := by rw [hr.l2]; exact ha
  have e := List.getElem?_eq_getElem hlt
  rw [e, hr.rel a _ _ (h1 a ha) e _ rfl]

omit [LinearOrder K] [IsStrictOrderedRing K] in
/-- the sum over the three blocks is the sum over the rows -/
theorem sum_rows {m : Nat} {f : Fam (Ext K)} (hw : f.w.length = m) (hx : f.x.length = m) (β : Nat → K) :
    ∑ j ∈ Finset.range m, (β j • vval n (f.w.getD j []) + β (2 * m + j) • vval n (f.p.getD j []) +
      β (m + j) • vval n (f.x.getD j [])) =
    ∑ a ∈ Finset.range (m + m + m), β a • vval n (f.rows.getD a []) := by
  rw [Finset.sum_range_add, Finset.sum_range_add, Finset.sum_add_distrib, Finset.sum_add_distrib]
  have e1 : ∀ j ∈ Finset.range m, β j • vval n (f.rows.getD j []) = β j • vval n (f.w.getD j []) := by
    intro j hj
    have := Finset.mem_range.mp hj
    unfold Fam.rows
    rw [List.getD, List.getElem?_append_left (by rw [List.length_append, hw, hx]; omega),
      List.getElem?_append_left (by rw [hw]; omega)]
    rfl
  have e2 : ∀ j ∈ Finset.range m, β (m + j) • vval n (f.rows.getD (m + j) []) = β (m + j) • vval n (f.x.getD j []) := by
    intro j hj
    have := Finset.mem_range.mp hj
    unfold Fam.rows
    rw [List.getD, List.getElem?_append_left (by rw [List.length_append, hw, hx]; omega),
      List.getElem?_append_right (by rw [hw]; omega), hw, Nat.add_sub_cancel_left]
    rfl
  have e3 : ∀ j ∈ Finset.range m, β (m + m + j) • vval n (f.rows.getD (m + m + j) []) =
      β (2 * m + j) • vval n (f.p.getD j []) := by
    intro j hj
    unfold Fam.rows
    rw [List.getD, List.getElem?_append_right (by rw [List.length_append, hw, hx]; omega), List.length_append, hw, hx,
      Nat.add_sub_cancel_left, two_mul]
    rfl
  rw [Finset.sum_congr rfl e1, Finset.sum_congr rfl e2, Finset.sum_congr rfl e3]
  abel

/-- One iteration: if LAPACK succeeds and the new vectors are finite, they are Ritz pairs and not worse than the old
vectors. -/
theorem ritz_of (sq : K → K) (hn : 0 < n) (hM : Mᵀ = M) (hQ : Qᵀ = Q) {L : Lib (Ext K)} (hL : Dsygvd L)
    {hf : St (Ext K) → Fam (Ext K)} {m k : Nat} (hm : 0 < m) (hk2 : 2 * m ≤ k) (hk3 : k ≤ 3 * m)
    {s : St (Ext K)} (hs : Inv0 M Q hf m s) {lam0 : List (Ext K)}
    (hinfo : (L.sygvd 1 true false k (gram (Ext.num sq) (s.G.rows.take k) (s.F.rows.take k)) k
      (gram (Ext.num sq) ((hf s).rows.take k) (s.F.rows.take k)) k).2.2.2 = 0)
    {xs : List (List (Ext K))} {ls : List (Ext K)} (hls : ls.length = m)
    (hC : ∀ i, i < m → ∃ x li, xs[i]? = some x ∧ ls[i]? = some li ∧ ColC sq n m k
      (L.sygvd 1 true false k (gram (Ext.num sq) (s.G.rows.take k) (s.F.rows.take k)) k
        (gram (Ext.num sq) ((hf s).rows.take k) (s.F.rows.take k)) k).1 s.F
      (overwrite lam0 (L.sygvd 1 true false k (gram (Ext.num sq) (s.G.rows.take k) (s.F.rows.take k)) k
        (gram (Ext.num sq) ((hf s).rows.take k) (s.F.rows.take k)) k).2.2.1) i x li)
    {v : Fin m → Fin n → K} (hxs : xs = List.ofFn fun i => vec Ext.fin (v i)) :
    ∃ lam : Fin m → K, ls = List.ofFn (fun i => Ext.fin (lam i)) ∧ RitzPairs M Q lam v ∧
      Improves M Q Ext.fin s.F.x lam ∧ ∃ v0 : Fin m → Fin n → K, s.F.x = List.ofFn fun i => vec Ext.fin (v0 i) := by
  have hC' : ∀ i : Fin m, ∃ li, ls[(i : Nat)]? = some li ∧ ColC sq n m k
      (L.sygvd 1 true false k (gram (Ext.num sq) (s.G.rows.take k) (s.F.rows.take k)) k
        (gram (Ext.num sq) ((hf s).rows.take k) (s.F.rows.take k)) k).1 s.F
      (overwrite lam0 (L.sygvd 1 true false k (gram (Ext.num sq) (s.G.rows.take k) (s.F.rows.take k)) k
        (gram (Ext.num sq) ((hf s).rows.take k) (s.F.rows.take k)) k).2.2.1) i (vec Ext.fin (v i)) li := by
    intro i
    obtain ⟨x, li, h1, h2, h3⟩ := hC i i.2
    have : x = vec Ext.fin (v i) := by
      rw [hxs] at h1
      simp at h1
      exact h1.symm
    exact ⟨li, h2, this ▸ h3⟩
  have hfin : ∀ j, j < m → FinRow n s.F.w j ∧ FinRow n s.F.x j ∧ FinRow n s.F.p j := by
    obtain ⟨li, _, _, h3⟩ := hC' ⟨0, hm⟩
    obtain ⟨b, r, y, c, _, h5, h6, _⟩ := h3 _ rfl
    intro j hj
    exact ((combine_fin sq hn h5 h6).1 j hj).2
  obtain ⟨hF, hG⟩ := rows_finite hs.im hfin
  obtain ⟨_, hH⟩ := rows_finite hs.iq hfin
  let U : Fin k → Fin n → K := fun a => vval n (s.F.rows.getD a [])
  have tF : s.F.rows.take k = List.ofFn (fun a => vec Ext.fin (U a)) := take_ofFn fun a => hF a (by omega)
  have tG : s.G.rows.take k = List.ofFn (fun a => vec Ext.fin (M *ᵥ U a)) := take_ofFn fun a => hG a (by omega)
  have tH : (hf s).rows.take k = List.ofFn (fun a => vec Ext.fin (Q *ᵥ U a)) := take_ofFn fun a => hH a (by omega)
  rw [tF, tG, tH, gram_vec, gram_vec] at hC' hinfo
  obtain ⟨z, e, w, hz, hw, hok, hnorm⟩ := hL k _ _ (gramK_length _ _) (gramK_length _ _) hinfo
  rw [hz, hw] at hC'
  have hsol := solved_of hM hQ U hok hnorm
  have hzl : z.length = k * k := hok.length.1.trans (gramK_length _ _)
  have hwl : w.length = k := hok.wLength rfl
  -- every vector is a multiple of a Ritz vector
  have hY : ∀ i : Fin m, ∃ c : K, c ≠ 0 ∧
      v i = c • ((mat k (cm z k))ᵀ * Matrix.of U) ⟨i, by omega⟩ := by
    intro i
    obtain ⟨li, _, _, h3⟩ := hC' i
    obtain ⟨b, r, y, c, h4, h5, h6, h7, h8⟩ := h3 _ rfl
    refine ⟨c, h7, ?_⟩
    rw [h8]
    congr 1
    rw [(combine_fin sq hn h5 h6).2, sum_rows hs.im.w.l1 hs.im.x.l1 (fun a => val (b.getD a (.fin 0)))]
    have e1 : ∀ a ∈ Finset.range (m + m + m), val (b.getD a (.fin 0)) • vval n (s.F.rows.getD a []) =
        if a < k then cm z k a i • vval n (s.F.rows.getD a []) else 0 := by
      intro a ha
      have := Finset.mem_range.mp ha
      rw [coeffs_val sq hk3 (by omega) hzl h4 a (by omega)]
      split
      · rfl
      · rw [zero_smul]
    rw [Finset.sum_congr rfl e1]
    have e2 : m + m + m = k + (m + m + m - k) := by omega
    rw [e2, Finset.sum_range_add]
    have e3 : ∀ a ∈ Finset.range (m + m + m - k), (if k + a < k then cm z k (k + a) i •
        vval n (s.F.rows.getD (k + a) []) else (0 : Fin n → K)) = 0 := by
      intro a _
      rw [if_neg (by omega)]
    rw [Finset.sum_congr rfl e3, Finset.sum_const_zero, add_zero, Finset.sum_range]
    funext t
    rw [Finset.sum_apply, Matrix.mul_apply]
    refine Finset.sum_congr rfl fun a _ => ?_
    rw [if_pos a.2]
    rfl
  choose c hc0 hcv using hY
  have fq : ∀ i j : Fin m, v i ⬝ᵥ (Q *ᵥ v j) = c i * c j * (if i = j then 1 else 0) := by
    intro i j
    rw [hcv i, hcv j, form_smul, form_apply, hsol.q, Matrix.one_apply]
    simp [Fin.ext_iff]
  have fm : ∀ i j : Fin m, v i ⬝ᵥ (M *ᵥ v j) = c i * c j * (if i = j then w.getD i 0 else 0) := by
    intro i j
    rw [hcv i, hcv j, form_smul, form_apply, hsol.m, Matrix.diagonal_apply]
    simp [Fin.ext_iff]
  refine ⟨fun i => w.getD i 0, ?_, ⟨?_, ?_, ?_, ?_⟩, ?_, ?_⟩
  · apply List.ext_getElem?
    intro i
    by_cases hi : i < m
    · obtain ⟨li, h1, h2, _⟩ := hC' ⟨i, hi⟩
      have hiw : i < w.length := by omega
      unfold overwrite at h2
      rw [List.getElem?_append_left (by rw [List.length_map]; exact hiw), List.getElem?_map,
        List.getElem?_eq_getElem hiw] at h2
      rw [h1, ← h2]
      simp [List.getElem?_ofFn, hi, hiw]
    · rw [List.getElem?_eq_none (by omega), List.getElem?_eq_none (by simp; omega)]
  · intro i
    rw [fq, if_pos rfl, mul_one]
    exact mul_self_pos.mpr (hc0 i)
  · intro i
    rw [fq, fm, if_pos rfl, if_pos rfl]
    ring
  · intro i j hij
    rw [fq, fm, if_neg hij, if_neg hij, mul_zero]
    exact ⟨rfl, rfl⟩
  · intro i j hij
    exact hok.sorted rfl i j hij (by omega)
  · intro i r u ρ hr hu hq
    have hrm : ∀ j, r j < m := by
      intro j
      have h1 := hu j
      by_contra hge
      rw [List.getElem?_eq_none (by rw [hs.im.x.l1]; omega)] at h1
      cases h1
    have hU : ∀ j, U ⟨m + r j, by have := hrm j; omega⟩ = u j := by
      intro j
      have h1 := hu j
      have h2 : s.F.rows[m + r j]? = some (vec Ext.fin (u j)) := by
        unfold Fam.rows
        rw [List.getElem?_append_left (by
          have := hrm j
          rw [List.length_append, hs.im.w.l1, hs.im.x.l1]; omega),
          List.getElem?_append_right (by rw [hs.im.w.l1]; omega), hs.im.w.l1, Nat.add_sub_cancel_left]
        exact h1
      exact (FinRow.of h2).2
    refine hsol.minmax (i := i) (by omega) (fun j => ⟨m + r j, by have := hrm j; omega⟩) ?_ ?_
    · intro a b hab
      have := congrArg Fin.val hab
      simp only at this
      exact hr (by omega)
    · intro d
      have e : (fun j : Fin ((i : Nat) + 1) => d j • (Matrix.of U) ⟨m + r j, by have := hrm j; omega⟩) =
          fun j => d j • u j := by
        funext j
        exact congrArg _ (hU j)
      have := hq d
      rw [← e] at this
      exact this
  · refine ⟨fun i => vval n (s.F.x.getD i []), ?_⟩
    rw [← take_ofFn (rows := s.F.x) (fun a => (hfin a a.2).2.1), List.take_of_length_le (by rw [hs.im.x.l1])]

end Verif.Lobpcg
