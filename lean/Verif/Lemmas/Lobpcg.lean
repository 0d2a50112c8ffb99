import Verif.Model.Lobpcg
import Verif.Lemmas.Ext
import Verif.Lemmas.Solver
import Verif.Spec.LobpcgSpec
import Mathlib.Tactic.ByContra
import Mathlib.Tactic.Ring
import Mathlib.Tactic.Abel
import Mathlib.Tactic.FieldSimp
import Mathlib.Algebra.Order.BigOperators.Group.Finset

/-!
LOBPCG in IEEE-like arithmetic: a finite result of the vector operations comes from finite operands, and
the pairs (vector, image under `A`) that the solver carries along stay related whenever they are finite.
-/

namespace Verif.Lobpcg

open Spec Solver Matrix

variable {K : Type} [Field K] [LinearOrder K] {n : Nat}

theorem add_fin {a b : Ext K} {c : K} (h : Ext.add a b = .fin c) :
    ∃ a' b', a = .fin a' ∧ b = .fin b' ∧ a' + b' = c := by
  cases a <;> cases b <;> simp_all [Ext.add]

theorem mul_fin {a b : Ext K} {c : K} (h : Ext.mul a b = .fin c) :
    ∃ a' b', a = .fin a' ∧ b = .fin b' ∧ a' * b' = c := by
  cases a <;> cases b <;> simp_all [Ext.mul, Ext.scaleInf, Ext.neg] <;>
    (repeat' split at h) <;> simp_all

theorem neg_fin {a : Ext K} {c : K} (h : Ext.neg a = .fin c) : ∃ a', a = .fin a' ∧ -a' = c := by
  cases a <;> simp_all [Ext.neg]

theorem foldl_add_fin : ∀ (l : List (Ext K)) (a : Ext K) (c : K),
    List.foldl Ext.add a l = .fin c → (∃ a', a = .fin a') ∧ ∀ b ∈ l, ∃ b', b = .fin b'
  | [], a, c, h => ⟨⟨c, h⟩, by simp⟩
  | b :: l, a, c, h => by
    obtain ⟨⟨s, hs⟩, hl⟩ := foldl_add_fin l (Ext.add a b) c h
    obtain ⟨a', b', h1, h2, _⟩ := add_fin hs
    refine ⟨⟨a', h1⟩, ?_⟩
    intro x hx
    rcases List.mem_cons.mp hx with rfl | hx
    · exact ⟨b', h2⟩
    · exact hl x hx

/-- a list of finite numbers of length `n` is the image of a vector -/
theorem exists_vec {u : List (Ext K)} (hl : u.length = n) (h : ∀ a ∈ u, ∃ c, a = .fin c) :
    ∃ v : Fin n → K, u = vec Ext.fin v := by
  have : ∀ i : Fin n, ∃ c, u[(i : Nat)]'(by omega) = .fin c := fun i => h _ (List.getElem_mem _)
  choose v hv using this
  refine ⟨v, ?_⟩
  apply List.ext_getElem
  · simp [vec, hl]
  · intro i h1 h2
    simp only [vec, List.getElem_ofFn]
    exact hv ⟨i, by omega⟩

theorem vec_getElem (v : Fin n → K) (i : Fin n) (h : (i : Nat) < (vec (Ext.fin : K → Ext K) v).length) :
    (vec Ext.fin v)[(i : Nat)] = .fin (v i) := by simp [vec]

theorem vec_length (v : Fin n → K) : (vec (Ext.fin : K → Ext K) v).length = n := by simp [vec]

theorem vec_inj {v w : Fin n → K} (h : vec (Ext.fin : K → Ext K) v = vec Ext.fin w) : v = w := by
  funext i
  have h1 := vec_getElem v i (by rw [vec_length]; exact i.2)
  have h2 := vec_getElem w i (by rw [vec_length]; exact i.2)
  have : (vec (Ext.fin : K → Ext K) v)[(i : Nat)]'(by rw [vec_length]; exact i.2) =
    (vec Ext.fin w)[(i : Nat)]'(by rw [vec_length]; exact i.2) := by congr 1
  rw [h1, h2] at this
  exact Ext.fin.inj this

/-- `a x + y` finite -/
theorem zip_fin (hn : 0 < n) {a : Ext K} {x y : List (Ext K)} (hxy : x.length = y.length)
    {v : Fin n → K}
    (h : List.zipWith (fun u w => Ext.add (Ext.mul a u) w) x y = vec Ext.fin v) :
    ∃ a' xv yv, a = .fin a' ∧ x = vec Ext.fin xv ∧ y = vec Ext.fin yv ∧ v = a' • xv + yv := by
  have hlen : x.length = n := by
    have := congrArg List.length h
    rw [List.length_zipWith, vec_length] at this
    omega
  have hylen : y.length = n := by omega
  have key : ∀ i : Fin n, ∃ a' b' c', a = .fin a' ∧ x[(i : Nat)]'(by omega) = .fin b' ∧
      y[(i : Nat)]'(by omega) = .fin c' ∧ v i = a' * b' + c' := by
    intro i
    have h1 : (List.zipWith (fun u w => Ext.add (Ext.mul a u) w) x y)[(i : Nat)]'(by
        rw [List.length_zipWith]; omega) = .fin (v i) := by
      have h0 := vec_getElem v i (by rw [vec_length]; exact i.2)
      rw [← h0]
      congr 1
    rw [List.getElem_zipWith] at h1
    obtain ⟨s, c', hs, hc, hsum⟩ := add_fin h1
    obtain ⟨a', b', ha, hb, hprod⟩ := mul_fin hs
    exact ⟨a', b', c', ha, hb, hc, by rw [hprod, hsum]⟩
  obtain ⟨a', _, _, ha, _⟩ := key ⟨0, hn⟩
  choose aa bb cc h1 h2 h3 h4 using key
  refine ⟨a', bb, cc, ha, ?_, ?_, ?_⟩
  · apply List.ext_getElem
    · rw [vec_length]; omega
    · intro i hi1 hi2
      simp only [vec, List.getElem_ofFn]
      exact h2 ⟨i, by omega⟩
  · apply List.ext_getElem
    · rw [vec_length]; omega
    · intro i hi1 hi2
      simp only [vec, List.getElem_ofFn]
      exact h3 ⟨i, by omega⟩
  · funext i
    have : aa i = a' := Ext.fin.inj ((h1 i).symm.trans ha)
    rw [h4 i, this]
    simp

/-- `a x` finite -/
theorem scal_fin (sq : K → K) (hn : 0 < n) {a : Ext K} {x : List (Ext K)} {v : Fin n → K}
    (h : scal (Ext.num sq) a x = vec Ext.fin v) :
    ∃ a' xv, a = .fin a' ∧ x = vec Ext.fin xv ∧ v = a' • xv := by
  have hlen : x.length = n := by
    have := congrArg List.length h
    rw [scal, List.length_map, vec_length] at this
    exact this
  have key : ∀ i : Fin n, ∃ a' b', a = .fin a' ∧ x[(i : Nat)]'(by omega) = .fin b' ∧
      v i = a' * b' := by
    intro i
    have h1 : (scal (Ext.num sq) a x)[(i : Nat)]'(by
        rw [scal, List.length_map]; omega) = .fin (v i) := by
      have h0 := vec_getElem v i (by rw [vec_length]; exact i.2)
      rw [← h0]
      congr 1
    simp only [scal, List.getElem_map] at h1
    obtain ⟨a', b', ha, hb, hprod⟩ := mul_fin h1
    exact ⟨a', b', ha, hb, hprod.symm⟩
  obtain ⟨a', _, ha, _⟩ := key ⟨0, hn⟩
  choose aa bb h1 h2 h4 using key
  refine ⟨a', bb, ha, ?_, ?_⟩
  · apply List.ext_getElem
    · rw [vec_length]; omega
    · intro i hi1 hi2
      simp only [vec, List.getElem_ofFn]
      exact h2 ⟨i, by omega⟩
  · funext i
    have : aa i = a' := Ext.fin.inj ((h1 i).symm.trans ha)
    rw [h4 i, this]
    simp

/-- a norm below a finite bound is the norm of a finite vector -/
theorem nrm2_lt_fin (sq : K → K) {u : List (Ext K)} (hl : u.length = n) {t : K}
    (h : (Ext.num sq).lt ((Ext.num sq).nrm2 u) (.fin t) = true) :
    ∃ v : Fin n → K, u = vec Ext.fin v := by
  have h1 : ∃ c, List.foldl Ext.add (.fin 0) (List.zipWith Ext.mul u u) = .fin c := by
    have h' : Ext.lt (Ext.sqrt sq (List.foldl Ext.add (.fin 0) (List.zipWith Ext.mul u u)))
      (.fin t) = true := h
    cases hs : List.foldl Ext.add (.fin 0) (List.zipWith Ext.mul u u) with
    | fin c => exact ⟨c, rfl⟩
    | pinf => rw [hs] at h'; simp [Ext.sqrt, Ext.lt] at h'
    | ninf => rw [hs] at h'; simp [Ext.sqrt, Ext.lt] at h'
    | nan => rw [hs] at h'; simp [Ext.sqrt, Ext.lt] at h'
  obtain ⟨c, hc⟩ := h1
  obtain ⟨_, hall⟩ := foldl_add_fin _ _ _ hc
  apply exists_vec hl
  intro a ha
  obtain ⟨i, hi, rfl⟩ := List.mem_iff_getElem.mp ha
  obtain ⟨b, hb⟩ := hall (Ext.mul u[i] u[i]) (by
    rw [List.mem_iff_getElem]
    exact ⟨i, by rw [List.length_zipWith]; omega, by rw [List.getElem_zipWith]⟩)
  obtain ⟨a', _, ha', _⟩ := mul_fin hb
  exact ⟨a', ha'⟩

/-! ### Vectors and their images -/

/-- when both are finite, the second is the image of the first -/
def Rel (M : Matrix (Fin n) (Fin n) K) (u U : List (Ext K)) : Prop :=
  ∀ v V : Fin n → K, u = vec Ext.fin v → U = vec Ext.fin V → V = M *ᵥ v

variable {M : Matrix (Fin n) (Fin n) K}

theorem Rel.axpy (sq : K → K) (hn : 0 < n) {a : Ext K} {x X y Y z Z : List (Ext K)}
    (hx : Rel M x X) (hy : Rel M y Y) (h1 : (Ext.num sq).axpy a x y = .ok z)
    (h2 : (Ext.num sq).axpy a X Y = .ok Z) : Rel M z Z := by
  unfold Num.axpy at h1 h2
  obtain ⟨_, hc, h1⟩ := Res.bind_eq_ok.mp h1
  obtain ⟨_, hC, h2⟩ := Res.bind_eq_ok.mp h2
  have hl : x.length = y.length := by
    by_contra hne
    simp [cassert, hne] at hc
  have hL : X.length = Y.length := by
    by_contra hne
    simp [cassert, hne] at hC
  injection h1 with h1
  injection h2 with h2
  intro v V hv hV
  obtain ⟨a', xv, yv, ha, ex, ey, rfl⟩ := zip_fin hn hl (h1.trans hv)
  obtain ⟨a'', Xv, Yv, ha', eX, eY, rfl⟩ := zip_fin hn hL (h2.trans hV)
  have : a'' = a' := Ext.fin.inj (ha'.symm.trans ha)
  subst this
  rw [hx xv Xv ex eX, hy yv Yv ey eY, Matrix.mulVec_add, Matrix.mulVec_smul]

theorem Rel.scal (sq : K → K) (hn : 0 < n) {a : Ext K} {x X : List (Ext K)} (hx : Rel M x X) :
    Rel M (scal (Ext.num sq) a x) (scal (Ext.num sq) a X) := by
  intro v V hv hV
  obtain ⟨a', xv, ha, ex, rfl⟩ := scal_fin sq hn hv
  obtain ⟨a'', Xv, ha', eX, rfl⟩ := scal_fin sq hn hV
  have : a'' = a' := Ext.fin.inj (ha'.symm.trans ha)
  subst this
  rw [hx xv Xv ex eX, Matrix.mulVec_smul]

theorem Rel.zero : Rel M (List.replicate n (.fin 0)) (List.replicate n (.fin 0)) := by
  have : ∀ v : Fin n → K, List.replicate n (Ext.fin 0) = vec Ext.fin v → v = 0 := by
    intro v hv
    have : vec (Ext.fin : K → Ext K) (0 : Fin n → K) = vec Ext.fin v := by
      rw [← hv]
      simp [vec, List.ofFn_const]
    exact (vec_inj this).symm
  intro v V hv hV
  rw [this v hv, this V hV, Matrix.mulVec_zero]

/-- two loops in lock step -/
theorem forFrom_rel {σ τ : Type} {R : σ → τ → Prop} {f : Nat → σ → Res σ} {g : Nat → τ → Res τ}
    (hstep : ∀ j s t s' t', R s t → f j s = .ok s' → g j t = .ok t' → R s' t') :
    ∀ (k lo : Nat) (s : σ) (t : τ) (s' : σ) (t' : τ), R s t → forFrom lo k f s = .ok s' →
      forFrom lo k g t = .ok t' → R s' t'
  | 0, lo, s, t, s', t', hR, h1, h2 => by
    rw [forFrom_zero] at h1 h2
    injection h1 with h1
    injection h2 with h2
    subst h1; subst h2; exact hR
  | k + 1, lo, s, t, s', t', hR, h1, h2 => by
    rw [forFrom_succ] at h1 h2
    obtain ⟨s1, e1, h1⟩ := Res.bind_eq_ok.mp h1
    obtain ⟨t1, e2, h2⟩ := Res.bind_eq_ok.mp h2
    exact forFrom_rel hstep k (lo + 1) s1 t1 s' t' (hstep lo s t s1 t1 hR e1 e2) h1 h2

/-- the vectors of two families are related one by one -/
structure FamRel (M : Matrix (Fin n) (Fin n) K) (f g : Fam (Ext K)) : Prop where
  w : ∀ (j : Nat) (u U : List (Ext K)), f.w[j]? = some u → g.w[j]? = some U → Rel M u U
  x : ∀ (j : Nat) (u U : List (Ext K)), f.x[j]? = some u → g.x[j]? = some U → Rel M u U
  p : ∀ (j : Nat) (u U : List (Ext K)), f.p[j]? = some u → g.p[j]? = some U → Rel M u U

theorem combine_rel (sq : K → K) (hn : 0 < n) {m : Nat} {b : List (Ext K)} {f g : Fam (Ext K)}
    (h : FamRel M f g) {r R : List (Ext K) × List (Ext K)}
    (h1 : combine (Ext.num sq) m b f (List.replicate n (.fin 0)) = .ok r)
    (h2 : combine (Ext.num sq) m b g (List.replicate n (.fin 0)) = .ok R) :
    Rel M r.1 R.1 ∧ Rel M r.2 R.2 := by
  unfold combine forN at h1 h2
  refine forFrom_rel (R := fun (s t : List (Ext K) × List (Ext K)) => Rel M s.1 t.1 ∧ Rel M s.2 t.2)
    ?_ m 0 _ _ _ _ ⟨Rel.zero, Rel.zero⟩ h1 h2
  intro j s t s' t' ⟨hR1, hR2⟩ e1 e2
  obtain ⟨bw, hbw, e1⟩ := Res.bind_eq_ok.mp e1
  obtain ⟨bx, hbx, e1⟩ := Res.bind_eq_ok.mp e1
  obtain ⟨bp, hbp, e1⟩ := Res.bind_eq_ok.mp e1
  obtain ⟨wj, hwj, e1⟩ := Res.bind_eq_ok.mp e1
  obtain ⟨xj, hxj, e1⟩ := Res.bind_eq_ok.mp e1
  obtain ⟨pj, hpj, e1⟩ := Res.bind_eq_ok.mp e1
  obtain ⟨p1, a1, e1⟩ := Res.bind_eq_ok.mp e1
  obtain ⟨p2, a2, e1⟩ := Res.bind_eq_ok.mp e1
  obtain ⟨x1, a3, e1⟩ := Res.bind_eq_ok.mp e1
  obtain ⟨x2, a4, e1⟩ := Res.bind_eq_ok.mp e1
  obtain ⟨x3, a5, e1⟩ := Res.bind_eq_ok.mp e1
  obtain ⟨bw', hbw', e2⟩ := Res.bind_eq_ok.mp e2
  obtain ⟨bx', hbx', e2⟩ := Res.bind_eq_ok.mp e2
  obtain ⟨bp', hbp', e2⟩ := Res.bind_eq_ok.mp e2
  obtain ⟨Wj, hWj, e2⟩ := Res.bind_eq_ok.mp e2
  obtain ⟨Xj, hXj, e2⟩ := Res.bind_eq_ok.mp e2
  obtain ⟨Pj, hPj, e2⟩ := Res.bind_eq_ok.mp e2
  obtain ⟨P1, A1, e2⟩ := Res.bind_eq_ok.mp e2
  obtain ⟨P2, A2, e2⟩ := Res.bind_eq_ok.mp e2
  obtain ⟨X1, A3, e2⟩ := Res.bind_eq_ok.mp e2
  obtain ⟨X2, A4, e2⟩ := Res.bind_eq_ok.mp e2
  obtain ⟨X3, A5, e2⟩ := Res.bind_eq_ok.mp e2
  cases e1; cases e2
  cases hbw.symm.trans hbw'
  cases hbx.symm.trans hbx'
  cases hbp.symm.trans hbp'
  have rw' := h.w j wj Wj (rd_eq_ok.mp hwj) (rd_eq_ok.mp hWj)
  have rx' := h.x j xj Xj (rd_eq_ok.mp hxj) (rd_eq_ok.mp hXj)
  have rp' := h.p j pj Pj (rd_eq_ok.mp hpj) (rd_eq_ok.mp hPj)
  have q1 := rw'.axpy sq hn hR1 a1 A1
  have q2 := rp'.axpy sq hn q1 a2 A2
  have q3 := rw'.axpy sq hn hR2 a3 A3
  have q4 := rp'.axpy sq hn q3 a4 A4
  exact ⟨q2, rx'.axpy sq hn q4 a5 A5⟩

theorem FamRel.put {f g : Fam (Ext K)} (h : FamRel M f g) {i : Nat}
    {w x p W X P : List (Ext K)} (hw : Rel M w W) (hx : Rel M x X) (hp : Rel M p P) :
    FamRel M (f.put i w x p) (g.put i W X P) := by
  have key : ∀ (a A : List (List (Ext K))) (z Z : List (Ext K)), Rel M z Z →
      (∀ (j : Nat) (u U : List (Ext K)), a[j]? = some u → A[j]? = some U → Rel M u U) →
      ∀ (j : Nat) (u U : List (Ext K)), (a.set i z)[j]? = some u → (A.set i Z)[j]? = some U →
        Rel M u U := by
    intro a A z Z hz ha j u U h1 h2
    rw [List.getElem?_set] at h1 h2
    by_cases hij : i = j
    · rw [if_pos hij] at h1 h2
      split at h1
      · split at h2
        · injection h1 with h1
          injection h2 with h2
          subst h1; subst h2; exact hz
        · cases h2
      · cases h1
    · rw [if_neg hij] at h1 h2
      exact ha j u U h1 h2
  exact ⟨key _ _ _ _ hw h.w, key _ _ _ _ hx h.x, key _ _ _ _ hp h.p⟩

theorem rel_mvInto {A : Mat (Ext K)} (hA : ∀ v, A.mv (vec Ext.fin v) = .ok (vec Ext.fin (M *ᵥ v)))
    {w W : List (Ext K)} (h : mvInto A n w = .ok W) : Rel M w W := by
  unfold mvInto at h
  obtain ⟨_, _, h⟩ := Res.bind_eq_ok.mp h
  intro v V hv hV
  subst hv
  rw [hA v] at h
  injection h with h
  exact (vec_inj (h.trans hV)).symm

/-! ### One column -/

variable [IsStrictOrderedRing K]

/-- If the residual `r` is below a number then the pair is a pair of numbers, the vector has norm one
and the residual is what it should be. -/
def Good (sq : K → K) (M : Matrix (Fin n) (Fin n) K) (P : (Fin n → K) → Fin n → K)
    (x : List (Ext K)) (l r : Ext K) : Prop :=
  ∀ t : K, Ext.lt r (.fin t) = true → ∃ (lam : K) (v : Fin n → K), l = .fin lam ∧
    x = vec Ext.fin v ∧ norm2 sq (P (M *ᵥ v - lam • v)) < t ∧ Normalised sq v

theorem good_of (sq : K → K) (hn : 0 < n)
    {pc : List (Ext K) → Res (List (Ext K))}
    {P : (Fin n → K) → Fin n → K} (hpc : Strict pc P) {y Y w w' : List (Ext K)} {li : Ext K}
    (hrel : Rel M (scal (Ext.num sq) ((Ext.num sq).div (Ext.num sq).one ((Ext.num sq).nrm2 y)) y) Y)
    (hw : (Ext.num sq).axpyz ((Ext.num sq).neg li)
      (scal (Ext.num sq) ((Ext.num sq).div (Ext.num sq).one ((Ext.num sq).nrm2 y)) y) Y n = .ok w)
    (hw' : pc w = .ok w') :
    Good sq M P (scal (Ext.num sq) ((Ext.num sq).div (Ext.num sq).one ((Ext.num sq).nrm2 y)) y) li
      ((Ext.num sq).nrm2 w') := by
  intro t ht
  unfold Num.axpyz at hw
  obtain ⟨_, hc, hw⟩ := Res.bind_eq_ok.mp hw
  have hl : (scal (Ext.num sq) ((Ext.num sq).div (Ext.num sq).one ((Ext.num sq).nrm2 y)) y).length =
      Y.length ∧ (scal (Ext.num sq) ((Ext.num sq).div (Ext.num sq).one ((Ext.num sq).nrm2 y))
        y).length = n := by
    by_contra hne
    simp only [cassert, hne, decide_false, Bool.false_eq_true, if_false] at hc
    cases hc
  injection hw with hw
  have hwl : w.length = n := by
    rw [← hw, List.length_zipWith, ← hl.1, hl.2]; omega
  obtain ⟨u', hu'⟩ := nrm2_lt_fin (n := n) sq (hpc.len _ _ hwl hw') ht
  subst hu'
  obtain ⟨u, hu⟩ := hpc.fin _ _ hwl hw'
  subst hu
  rw [hpc.app u] at hw'
  injection hw' with hw'
  rw [← hw'] at ht
  rw [Solver.nrm2_vec (Ext.exact sq)] at ht
  obtain ⟨a, v, V, ha, hv, hV, huv⟩ := zip_fin hn hl.1 hw
  obtain ⟨lam, hlam, hneg⟩ := neg_fin ha
  have hMV := hrel v V hv hV
  obtain ⟨c, q, hcq, hq, hvq⟩ := scal_fin sq hn hv
  refine ⟨lam, v, hlam, hv, ?_, ?_⟩
  · have : u = M *ᵥ v - lam • v := by
      rw [huv, hMV, ← hneg, neg_smul]; abel
    rw [← this]
    exact of_decide_eq_true ht
  · rw [hq, Solver.nrm2_vec (Ext.exact sq)] at hcq
    have hcq : Ext.div (Ext.fin 1) (Ext.fin (norm2 sq q)) = Ext.fin c := hcq
    by_cases h0 : norm2 sq q = 0
    · rw [h0] at hcq
      simp [Ext.div] at hcq
    · simp only [Ext.div, h0, if_false] at hcq
      have hcq := Ext.fin.inj hcq
      exact ⟨q, h0, by rw [hvq, ← hcq, one_div]⟩

/-- with exact square roots a normalised vector has norm one -/
theorem Normalised.unit {sq : K → K} (hsq : ∀ a, 0 ≤ a → sq a * sq a = a) {v : Fin n → K}
    (h : Normalised sq v) : v ⬝ᵥ v = 1 := by
  obtain ⟨q, h0, rfl⟩ := h
  have hqq : 0 ≤ q ⬝ᵥ q := by
    unfold dotProduct
    exact Finset.sum_nonneg (fun i _ => mul_self_nonneg _)
  have h2 : norm2 sq q * norm2 sq q = q ⬝ᵥ q := hsq _ hqq
  rw [smul_dotProduct, dotProduct_smul, smul_eq_mul, smul_eq_mul, ← h2]
  field_simp

/-- what a column does to the data -/
structure ColOk (sq : K → K) (M : Matrix (Fin n) (Fin n) K) (P : (Fin n → K) → Fin n → K)
    (Inv : St (Ext K) → Prop) (i : Nat) (s s' : St (Ext K)) (r : Ext K) : Prop where
  inv : Inv s'
  nn : Ext.isNaN r = false
  upd : ∃ x li, s'.F.x = s.F.x.set i x ∧ s'.l = s.l.set i li ∧ Good sq M P x li r

theorem wr_eq_ok {β : Type} {l : List β} {i : Nat} {a : β} {l' : List β} (h : wr l i a = .ok l') :
    l' = l.set i a := by
  unfold wr at h
  split at h
  · injection h with h; exact h.symm
  · cases h

theorem column_ok (sq : K → K) (hn : 0 < n)
    {A : Mat (Ext K)} (hA : ∀ v, A.mv (vec Ext.fin v) = .ok (vec Ext.fin (M *ᵥ v)))
    {pc : List (Ext K) → Res (List (Ext K))}
    {P : (Fin n → K) → Fin n → K} (hpc : Strict pc P) {m k iter i : Nat} {S : List (Ext K)}
    {prev s : St (Ext K)} (hp : FamRel M prev.F prev.G) (hs : FamRel M s.F s.G)
    {s' : St (Ext K)} {r : Ext K}
    (h : column (Ext.num sq) A pc m n k S iter prev i s = .ok (.inr (s', r))) :
    ColOk sq M P (fun s => FamRel M s.F s.G) i s s' r := by
  unfold column at h
  obtain ⟨li, hli, h⟩ := Res.bind_eq_ok.mp h
  obtain ⟨l', hl', h⟩ := Res.bind_eq_ok.mp h
  obtain ⟨b, hb, h⟩ := Res.bind_eq_ok.mp h
  obtain ⟨px, hpx, h⟩ := Res.bind_eq_ok.mp h
  obtain ⟨PX, hPX, h⟩ := Res.bind_eq_ok.mp h
  obtain ⟨w, hw, h⟩ := Res.bind_eq_ok.mp h
  obtain ⟨w', hw', h⟩ := Res.bind_eq_ok.mp h
  obtain ⟨r1, r2⟩ := combine_rel sq hn hp hpx hPX
  by_cases hnan : (Ext.num sq).isNaN ((Ext.num sq).nrm2 w') = true
  · rw [if_pos hnan] at h; cases h
  · rw [if_neg hnan] at h
    obtain ⟨W, hW, h⟩ := Res.bind_eq_ok.mp h
    cases h
    refine ⟨hs.put (rel_mvInto hA hW) (r2.scal sq hn) (r1.scal sq hn), Bool.eq_false_iff.mpr hnan,
      _, li, rfl, wr_eq_ok hl', ?_⟩
    exact good_of sq hn hpc (r2.scal sq hn) hw hw'

/-! ### All columns -/

theorem columns_ok (sq : K → K) {P : (Fin n → K) → Fin n → K} {Inv : St (Ext K) → Prop}
    {body : Nat → St (Ext K) → Res (Sum (Out (Ext K)) (St (Ext K) × Ext K))}
    (hbody : ∀ i s s' r, Inv s → body i s = .ok (.inr (s', r)) → ColOk sq M P Inv i s s' r)
    {m : Nat} : ∀ (k j : Nat) (rs : List (Ext K)) (s s' : St (Ext K)) (rs' : List (Ext K)),
    Inv s → s.F.x.length = m → s.l.length = m → rs.length = j → j + k = m →
    (∀ r ∈ rs, Ext.isNaN r = false) →
    (∀ (i : Nat) (r : Ext K), rs[i]? = some r → ∃ x l, s.F.x[i]? = some x ∧ s.l[i]? = some l ∧ Good sq M P x l r) →
    columns body (List.range' j k) rs s = .ok (.inr (s', rs')) →
    Inv s' ∧ s'.F.x.length = m ∧ s'.l.length = m ∧ rs'.length = m ∧
    (∀ r ∈ rs', Ext.isNaN r = false) ∧
    (∀ (i : Nat) (r : Ext K), rs'[i]? = some r → ∃ x l, s'.F.x[i]? = some x ∧ s'.l[i]? = some l ∧ Good sq M P x l r)
  | 0, j, rs, s, s', rs', hI, hx, hl, hr, hjk, hnn, hg, h => by
    simp only [List.range'_zero, columns] at h
    cases h
    exact ⟨hI, hx, hl, by omega, hnn, hg⟩
  | k + 1, j, rs, s, s', rs', hI, hx, hl, hr, hjk, hnn, hg, h => by
    rw [List.range'_succ, columns] at h
    obtain ⟨o, ho, h⟩ := Res.bind_eq_ok.mp h
    cases o with
    | inl o => cases h
    | inr q =>
      obtain ⟨s1, r⟩ := q
      have hc := hbody j s s1 r hI ho
      obtain ⟨x, li, e1, e2, hG⟩ := hc.upd
      refine columns_ok sq hbody k (j + 1) (rs ++ [r]) s1 s' rs' hc.inv (by rw [e1]; simpa using hx)
        (by rw [e2]; simpa using hl) (by simp [hr]) (by omega) ?_ ?_ h
      · intro z hz
        rcases List.mem_append.mp hz with hz | hz
        · exact hnn z hz
        · rw [List.mem_singleton.mp hz]; exact hc.nn
      · intro i z hz
        rw [e1, e2]
        by_cases hij : i = j
        · subst hij
          rw [← hr, List.getElem?_concat_length] at hz
          injection hz with hz
          subst hz
          exact ⟨x, li, by rw [List.getElem?_set_self (by omega)],
            by rw [List.getElem?_set_self (by omega)], hG⟩
        · have hi : i < rs.length := by
            by_contra hge
            have h1 : (rs ++ [r]).length ≤ i := by simp; omega
            rw [List.getElem?_eq_none h1] at hz
            cases hz
          rw [List.getElem?_append_left hi] at hz
          rw [List.getElem?_set_ne (by omega), List.getElem?_set_ne (by omega)]
          exact hg i z hz

theorem foldl_max_lt {t : K} : ∀ (l : List (Ext K)) (a : Ext K), Ext.isNaN a = false →
    (∀ b ∈ l, Ext.isNaN b = false) →
    Ext.lt (l.foldl (fun s b => if Ext.lt s b then b else s) a) (.fin t) = true →
    Ext.lt a (.fin t) = true ∧ ∀ b ∈ l, Ext.lt b (.fin t) = true
  | [], a, _, _, h => ⟨h, by simp⟩
  | b :: l, a, ha, hl, h => by
    have hb := hl b List.mem_cons_self
    obtain ⟨h1, h2⟩ := foldl_max_lt l (if Ext.lt a b then b else a) (by split <;> assumption)
      (fun c hc => hl c (List.mem_cons_of_mem _ hc)) h
    have key : Ext.lt a (.fin t) = true ∧ Ext.lt b (.fin t) = true := by
      clear h h2 hl
      cases ha' : a with
      | fin a0 =>
        subst ha'
        cases hb' : b with
        | fin b0 =>
          subst hb'
          simp only [Ext.lt, decide_eq_true_eq] at h1 ⊢
          by_cases hlt : a0 < b0
          · rw [if_pos hlt] at h1
            simp only [decide_eq_true_eq] at h1
            exact ⟨lt_trans hlt h1, h1⟩
          · rw [if_neg hlt] at h1
            simp only [decide_eq_true_eq] at h1
            exact ⟨h1, lt_of_le_of_lt (not_lt.mp hlt) h1⟩
        | _ => simp_all [Ext.lt, Ext.isNaN]
      | _ => subst ha'; cases b <;> simp_all [Ext.lt, Ext.isNaN]
    refine ⟨key.1, fun c hc => ?_⟩
    rcases List.mem_cons.mp hc with rfl | hc
    · exact key.2
    · exact h2 c hc

/-- the residuals collected by `columns` are below the tolerance: all pairs are good -/
theorem pairs_of (sq : K → K) {P : (Fin n → K) → Fin n → K} {m : Nat} {tol : K}
    {rs ls : List (Ext K)} {xs : List (List (Ext K))} {resid : Ext K}
    (hx : xs.length = m) (hl : ls.length = m) (hr : rs.length = m)
    (hnn : ∀ r ∈ rs, Ext.isNaN r = false)
    (hg : ∀ (i : Nat) (r : Ext K), rs[i]? = some r → ∃ x l, xs[i]? = some x ∧ ls[i]? = some l ∧ Good sq M P x l r)
    (hmax : maxV (Ext.num sq) rs = .ok resid) (ht : Ext.lt resid (.fin tol) = true) :
    Pairs sq (fun l v => P (M *ᵥ v - l • v)) tol ls xs m := by
  have hall : ∀ r ∈ rs, Ext.lt r (.fin tol) = true := by
    cases rs with
    | nil => simp
    | cons a rs =>
      unfold maxV at hmax
      injection hmax with hmax
      subst hmax
      obtain ⟨h1, h2⟩ := foldl_max_lt rs a (hnn a List.mem_cons_self)
        (fun b hb => hnn b (List.mem_cons_of_mem _ hb)) ht
      intro r hr
      rcases List.mem_cons.mp hr with rfl | hr
      · exact h1
      · exact h2 r hr
  have key : ∀ i : Fin m, ∃ (lam : K) (v : Fin n → K), ls[(i : Nat)]? = some (.fin lam) ∧
      xs[(i : Nat)]? = some (vec Ext.fin v) ∧ norm2 sq (P (M *ᵥ v - lam • v)) < tol ∧
        Normalised sq v := by
    intro i
    have hi : (i : Nat) < rs.length := by omega
    obtain ⟨x, l, h1, h2, hG⟩ := hg i _ (List.getElem?_eq_getElem hi)
    obtain ⟨lam, v, rfl, rfl, h3, h4⟩ := hG tol (hall _ (List.getElem_mem hi))
    exact ⟨lam, v, h2, h1, h3, h4⟩
  choose l v h1 h2 h3 using key
  refine ⟨l, v, ?_, ?_, h3⟩
  · apply List.ext_getElem?
    intro i
    by_cases hi : i < m
    · rw [h1 ⟨i, hi⟩]; simp [List.getElem?_ofFn, hi]
    · rw [List.getElem?_eq_none (by omega), List.getElem?_eq_none (by simp; omega)]
  · apply List.ext_getElem?
    intro i
    by_cases hi : i < m
    · rw [h2 ⟨i, hi⟩]; simp [List.getElem?_ofFn, hi]
    · rw [List.getElem?_eq_none (by omega), List.getElem?_eq_none (by simp; omega)]

end Verif.Lobpcg
