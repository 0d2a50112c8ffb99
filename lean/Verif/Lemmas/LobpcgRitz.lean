import Verif.Lemmas.Lobpcg
import Verif.Lemmas.RayleighRitz
import Verif.Spec.RitzSpec
import Verif.Props.GenSpectrum

/-!
LOBPCG as a Rayleigh-Ritz procedure: when the vectors it computes are finite, so were those it computed them from, and
the projected matrices are those of the Rayleigh-Ritz procedure.
-/

namespace Verif.Lobpcg

open Spec Solver Lapack Matrix

variable {K : Type} [Field K] [LinearOrder K] {n : Nat} {M Q : Matrix (Fin n) (Fin n) K}

/-- when the first is finite, the second is its image -/
def SRel (M : Matrix (Fin n) (Fin n) K) (u U : List (Ext K)) : Prop :=
  ∀ v : Fin n → K, u = vec Ext.fin v → U = vec Ext.fin (M *ᵥ v)

theorem axpy_len {N : Num (Ext K)} {a : Ext K} {x y z : List (Ext K)} (h : N.axpy a x y = .ok z) :
    x.length = y.length ∧ z = List.zipWith (fun u w => N.add (N.mul a u) w) x y := by
  unfold Num.axpy at h
  obtain ⟨_, hc, h⟩ := Res.bind_eq_ok.mp h
  refine ⟨?_, ?_⟩
  · by_contra hne
    simp [cassert, hne] at hc
  · injection h with h; exact h.symm

theorem axpy_fin (sq : K → K) (hn : 0 < n) {a : Ext K} {x y : List (Ext K)} {v : Fin n → K}
    (h : (Ext.num sq).axpy a x y = .ok (vec Ext.fin v)) :
    ∃ a' xv yv, a = .fin a' ∧ x = vec Ext.fin xv ∧ y = vec Ext.fin yv ∧ v = yv + a' • xv := by
  obtain ⟨hl, he⟩ := axpy_len h
  obtain ⟨a', xv, yv, h1, h2, h3, h4⟩ := zip_fin hn hl he.symm
  exact ⟨a', xv, yv, h1, h2, h3, by rw [h4, add_comm]⟩

theorem SRel.zero : SRel M (List.replicate n (.fin 0)) (List.replicate n (.fin 0)) := by
  intro v hv
  have e : vec (Ext.fin : K → Ext K) (0 : Fin n → K) = List.replicate n (.fin 0) := by
    simp [vec, List.ofFn_const]
  have : v = 0 := vec_inj (hv.symm.trans e.symm)
  rw [this, Matrix.mulVec_zero, e]

theorem scal_vec (sq : K → K) (a : K) (v : Fin n → K) :
    scal (Ext.num sq) (.fin a) (vec Ext.fin v) = vec Ext.fin (a • v) := by
  unfold scal vec
  rw [List.map_ofFn]
  rfl

theorem SRel.scal (sq : K → K) (hn : 0 < n) {a : Ext K} {x X : List (Ext K)} (hx : SRel M x X) :
    SRel M (scal (Ext.num sq) a x) (scal (Ext.num sq) a X) := by
  intro v hv
  obtain ⟨a', xv, ha, ex, rfl⟩ := scal_fin sq hn hv
  rw [ha, hx xv ex, scal_vec, Matrix.mulVec_smul]

theorem srel_mvInto {A : Mat (Ext K)} (hA : ∀ v, A.mv (vec Ext.fin v) = .ok (vec Ext.fin (M *ᵥ v)))
    {w W : List (Ext K)} (h : mvInto A n w = .ok W) : SRel M w W := by
  unfold mvInto at h
  obtain ⟨_, _, h⟩ := Res.bind_eq_ok.mp h
  intro v hv
  subst hv
  rw [hA v] at h
  injection h with h
  exact h.symm

variable [IsStrictOrderedRing K]

theorem SRel.axpy (sq : K → K) (hn : 0 < n) {a : Ext K} {x X y Y z Z : List (Ext K)}
    (hx : SRel M x X) (hy : SRel M y Y) (h1 : (Ext.num sq).axpy a x y = .ok z)
    (h2 : (Ext.num sq).axpy a X Y = .ok Z) : SRel M z Z := by
  intro v hv
  subst hv
  obtain ⟨a', xv, yv, ha, ex, ey, rfl⟩ := axpy_fin sq hn h1
  rw [ha, hx xv ex, hy yv ey, Solver.axpy_vec (Ext.exact sq)] at h2
  injection h2 with h2
  rw [← h2, Matrix.mulVec_add, Matrix.mulVec_smul]

/-- two blocks of `m` vectors, the second the images of the first -/
structure BRel (M : Matrix (Fin n) (Fin n) K) (m : Nat) (a A : List (List (Ext K))) : Prop where
  l1 : a.length = m
  l2 : A.length = m
  rel : ∀ (j : Nat) (u U : List (Ext K)), a[j]? = some u → A[j]? = some U → SRel M u U

structure SFam (M : Matrix (Fin n) (Fin n) K) (m : Nat) (f g : Fam (Ext K)) : Prop where
  w : BRel M m f.w g.w
  x : BRel M m f.x g.x
  p : BRel M m f.p g.p

omit [IsStrictOrderedRing K] in
theorem BRel.set {m i : Nat} {a A : List (List (Ext K))} (h : BRel M m a A) {z Z : List (Ext K)} (hz : SRel M z Z) :
    BRel M m (a.set i z) (A.set i Z) := by
  refine ⟨by simp [h.l1], by simp [h.l2], ?_⟩
  intro j u U h1 h2
  rw [List.getElem?_set] at h1 h2
  by_cases hij : i = j
  · rw [if_pos hij] at h1 h2
    split at h1
    · split at h2
      · injection h1 with h1
        injection h2 with h2
        subst h1; subst h2; exact hz
      · cases h2
    · cases h1
  · rw [if_neg hij] at h1 h2
    exact h.rel j u U h1 h2

omit [IsStrictOrderedRing K] in
theorem SFam.put {m : Nat} {f g : Fam (Ext K)} (h : SFam M m f g) {i : Nat}
    {w x p W X P : List (Ext K)} (hw : SRel M w W) (hx : SRel M x X) (hp : SRel M p P) :
    SFam M m (f.put i w x p) (g.put i W X P) :=
  ⟨h.w.set hw, h.x.set hx, h.p.set hp⟩

omit [IsStrictOrderedRing K] in
theorem BRel.append {m m' : Nat} {a A b B : List (List (Ext K))} (h : BRel M m a A) (h' : BRel M m' b B) :
    BRel M (m + m') (a ++ b) (A ++ B) := by
  refine ⟨by simp [h.l1, h'.l1], by simp [h.l2, h'.l2], ?_⟩
  intro j u U h1 h2
  by_cases hj : j < m
  · rw [List.getElem?_append_left (by rw [h.l1]; exact hj)] at h1
    rw [List.getElem?_append_left (by rw [h.l2]; exact hj)] at h2
    exact h.rel j u U h1 h2
  · rw [List.getElem?_append_right (by rw [h.l1]; omega), h.l1] at h1
    rw [List.getElem?_append_right (by rw [h.l2]; omega), h.l2] at h2
    exact h'.rel _ u U h1 h2

omit [IsStrictOrderedRing K] in
theorem SFam.rows {m : Nat} {f g : Fam (Ext K)} (h : SFam M m f g) : BRel M (m + m + m) f.rows g.rows :=
  (h.w.append h.x).append h.p

theorem combine_srel (sq : K → K) (hn : 0 < n) {m : Nat} {b : List (Ext K)} {f g : Fam (Ext K)}
    (h : SFam M m f g) {r R : List (Ext K) × List (Ext K)}
    (h1 : combine (Ext.num sq) m b f (List.replicate n (.fin 0)) = .ok r)
    (h2 : combine (Ext.num sq) m b g (List.replicate n (.fin 0)) = .ok R) :
    SRel M r.1 R.1 ∧ SRel M r.2 R.2 := by
  unfold combine forN at h1 h2
  refine forFrom_rel (R := fun (s t : List (Ext K) × List (Ext K)) => SRel M s.1 t.1 ∧ SRel M s.2 t.2)
    ?_ m 0 _ _ _ _ ⟨SRel.zero, SRel.zero⟩ h1 h2
  intro j s t s' t' ⟨hR1, hR2⟩ e1 e2
  obtain ⟨bw, hbw, e1⟩ := Res.bind_eq_ok.mp e1
  obtain ⟨bx, hbx, e1⟩ := Res.bind_eq_ok.mp e1
  obtain ⟨bp, hbp, e1⟩ := Res.bind_eq_ok.mp e1
  obtain ⟨wj, hwj, e1⟩ := Res.bind_eq_ok.mp e1
  obtain ⟨xj, hxj, e1⟩ := Res.bind_eq_ok.mp e1
  obtain ⟨pj, hpj, e1⟩ := Res.bind_eq_ok.mp e1
  obtain ⟨p1, a1, e1⟩ := Res.bind_eq_ok.mp e1
  obtain ⟨p2, a2, e1⟩ := Res.bind_eq_ok.mp e1
  obtain ⟨x1, a3, e1⟩ := Res.bind_eq_ok.mp e1
  obtain ⟨x2, a4, e1⟩ := Res.bind_eq_ok.mp e1
  obtain ⟨x3, a5, e1⟩ := Res.bind_eq_ok.mp e1
  obtain ⟨bw', hbw', e2⟩ := Res.bind_eq_ok.mp e2
  obtain ⟨bx', hbx', e2⟩ := Res.bind_eq_ok.mp e2
  obtain ⟨bp', hbp', e2⟩ := Res.bind_eq_ok.mp e2
  obtain ⟨Wj, hWj, e2⟩ := Res.bind_eq_ok.mp e2
  obtain ⟨Xj, hXj, e2⟩ := Res.bind_eq_ok.mp e2
  obtain ⟨Pj, hPj, e2⟩ := Res.bind_eq_ok.mp e2
  obtain ⟨P1, A1, e2⟩ := Res.bind_eq_ok.mp e2
  obtain ⟨P2, A2, e2⟩ := Res.bind_eq_ok.mp e2
  obtain ⟨X1, A3, e2⟩ := Res.bind_eq_ok.mp e2
  obtain ⟨X2, A4, e2⟩ := Res.bind_eq_ok.mp e2
  obtain ⟨X3, A5, e2⟩ := Res.bind_eq_ok.mp e2
  cases e1; cases e2
  cases hbw.symm.trans hbw'
  cases hbx.symm.trans hbx'
  cases hbp.symm.trans hbp'
  have rw' := h.w.rel j wj Wj (rd_eq_ok.mp hwj) (rd_eq_ok.mp hWj)
  have rx' := h.x.rel j xj Xj (rd_eq_ok.mp hxj) (rd_eq_ok.mp hXj)
  have rp' := h.p.rel j pj Pj (rd_eq_ok.mp hpj) (rd_eq_ok.mp hPj)
  have q1 := rw'.axpy sq hn hR1 a1 A1
  have q2 := rp'.axpy sq hn q1 a2 A2
  have q3 := rw'.axpy sq hn hR2 a3 A3
  have q4 := rp'.axpy sq hn q3 a4 A4
  exact ⟨q2, rx'.axpy sq hn q4 a5 A5⟩

/-! ### The combination is finite only if everything in it is -/

/-- the number, `0` for none -/
def val : Ext K → K
  | .fin a => a
  | _ => 0

/-- the vector of the numbers -/
def vval (n : Nat) (u : List (Ext K)) : Fin n → K := fun i => val (u.getD i (.fin 0))

omit [IsStrictOrderedRing K] in
theorem vval_vec (v : Fin n → K) : vval n (vec Ext.fin v) = v := by
  funext i
  simp [vval, vec, List.getD, val]

/-- entry `j` is finite -/
def FinAt (l : List (Ext K)) (j : Nat) : Prop := l[j]? = some (.fin (val (l.getD j (.fin 0))))

/-- row `j` is finite -/
def FinRow (n : Nat) (l : List (List (Ext K))) (j : Nat) : Prop := l[j]? = some (vec Ext.fin (vval n (l.getD j [])))

omit [IsStrictOrderedRing K] in
theorem FinAt.of {l : List (Ext K)} {j : Nat} {a : K} (h : l[j]? = some (.fin a)) :
    FinAt l j ∧ val (l.getD j (.fin 0)) = a := by
  have e : val (l.getD j (.fin 0)) = a := by rw [List.getD, h]; rfl
  exact ⟨by rw [FinAt, e]; exact h, e⟩

omit [IsStrictOrderedRing K] in
theorem FinRow.of {l : List (List (Ext K))} {j : Nat} {v : Fin n → K} (h : l[j]? = some (vec Ext.fin v)) :
    FinRow n l j ∧ vval n (l.getD j []) = v := by
  have e : vval n (l.getD j []) = v := by rw [List.getD, h, Option.getD_some, vval_vec]
  exact ⟨by rw [FinRow, e]; exact h, e⟩

omit [IsStrictOrderedRing K] in
theorem combine_fin (sq : K → K) (hn : 0 < n) {m : Nat} {b : List (Ext K)} {f : Fam (Ext K)}
    {r : List (Ext K) × List (Ext K)} {y : Fin n → K}
    (h : combine (Ext.num sq) m b f (List.replicate n (.fin 0)) = .ok r) (hr : r.2 = vec Ext.fin y) :
    (∀ j, j < m → (FinAt b j ∧ FinAt b (m + j) ∧ FinAt b (2 * m + j)) ∧
      (FinRow n f.w j ∧ FinRow n f.x j ∧ FinRow n f.p j)) ∧
    y = ∑ j ∈ Finset.range m, (val (b.getD j (.fin 0)) • vval n (f.w.getD j []) +
      val (b.getD (2 * m + j) (.fin 0)) • vval n (f.p.getD j []) +
      val (b.getD (m + j) (.fin 0)) • vval n (f.x.getD j [])) := by
  have key : ∀ (k lo : Nat) (s r : List (Ext K) × List (Ext K)) (y : Fin n → K),
      forFrom lo k (fun j s => do
        let bw ← rd b j
        let bx ← rd b (m + j)
        let bp ← rd b (2 * m + j)
        let wj ← rd f.w j
        let xj ← rd f.x j
        let pj ← rd f.p j
        let p ← (Ext.num sq).axpy bw wj s.1
        let p ← (Ext.num sq).axpy bp pj p
        let x ← (Ext.num sq).axpy bw wj s.2
        let x ← (Ext.num sq).axpy bp pj x
        let x ← (Ext.num sq).axpy bx xj x
        .ok (p, x)) s = .ok r → r.2 = vec Ext.fin y →
      ∃ y0 : Fin n → K, s.2 = vec Ext.fin y0 ∧ (∀ j, lo ≤ j → j < lo + k →
        (FinAt b j ∧ FinAt b (m + j) ∧ FinAt b (2 * m + j)) ∧
          (FinRow n f.w j ∧ FinRow n f.x j ∧ FinRow n f.p j)) ∧
      y = y0 + ∑ j ∈ Finset.range k, (val (b.getD (lo + j) (.fin 0)) • vval n (f.w.getD (lo + j) []) +
        val (b.getD (2 * m + (lo + j)) (.fin 0)) • vval n (f.p.getD (lo + j) []) +
        val (b.getD (m + (lo + j)) (.fin 0)) • vval n (f.x.getD (lo + j) [])) := by
    intro k
    induction k with
    | zero =>
      intro lo s r y h hr
      rw [forFrom_zero] at h
      injection h with h
      subst h
      exact ⟨y, hr, by intro j h1 h2; omega, by simp⟩
    | succ k ih =>
      intro lo s r y h hr
      rw [forFrom_succ] at h
      obtain ⟨s1, e1, h⟩ := Res.bind_eq_ok.mp h
      obtain ⟨y1, hy1, hall, hy⟩ := ih (lo + 1) s1 r y h hr
      obtain ⟨bw, hbw, e1⟩ := Res.bind_eq_ok.mp e1
      obtain ⟨bx, hbx, e1⟩ := Res.bind_eq_ok.mp e1
      obtain ⟨bp, hbp, e1⟩ := Res.bind_eq_ok.mp e1
      obtain ⟨wj, hwj, e1⟩ := Res.bind_eq_ok.mp e1
      obtain ⟨xj, hxj, e1⟩ := Res.bind_eq_ok.mp e1
      obtain ⟨pj, hpj, e1⟩ := Res.bind_eq_ok.mp e1
      obtain ⟨p1, a1, e1⟩ := Res.bind_eq_ok.mp e1
      obtain ⟨p2, a2, e1⟩ := Res.bind_eq_ok.mp e1
      obtain ⟨x1, a3, e1⟩ := Res.bind_eq_ok.mp e1
      obtain ⟨x2, a4, e1⟩ := Res.bind_eq_ok.mp e1
      obtain ⟨x3, a5, e1⟩ := Res.bind_eq_ok.mp e1
      cases e1
      simp only at hy1
      rw [hy1] at a5
      obtain ⟨c5, v5, u5, rfl, rfl, rfl, q5⟩ := axpy_fin sq hn a5
      obtain ⟨c4, v4, u4, rfl, rfl, rfl, q4⟩ := axpy_fin sq hn a4
      obtain ⟨c3, v3, u3, rfl, rfl, e3, q3⟩ := axpy_fin sq hn a3
      obtain ⟨f1, g1⟩ := FinAt.of (rd_eq_ok.mp hbw)
      obtain ⟨f2, g2⟩ := FinAt.of (rd_eq_ok.mp hbx)
      obtain ⟨f3, g3⟩ := FinAt.of (rd_eq_ok.mp hbp)
      obtain ⟨f4, g4⟩ := FinRow.of (rd_eq_ok.mp hwj)
      obtain ⟨f5, g5⟩ := FinRow.of (rd_eq_ok.mp hxj)
      obtain ⟨f6, g6⟩ := FinRow.of (rd_eq_ok.mp hpj)
      refine ⟨u3, e3, ?_, ?_⟩
      · intro j h1 h2
        by_cases hj : j = lo
        · subst hj; exact ⟨⟨f1, f2, f3⟩, f4, f5, f6⟩
        · exact hall j (by omega) (by omega)
      · rw [hy, Finset.sum_range_succ', q5, q4, q3]
        simp only [Nat.add_zero, g1, g2, g3, g4, g5, g6]
        have : ∀ i, lo + 1 + i = lo + (i + 1) := fun i => by omega
        simp only [this]
        abel
  unfold combine forN at h
  obtain ⟨y0, h0, hall, hy⟩ := key m 0 _ r y h hr
  have e : vec (Ext.fin : K → Ext K) (0 : Fin n → K) = List.replicate n (.fin 0) := by
    simp [vec, List.ofFn_const]
  have : y0 = 0 := (vec_inj (e.trans h0)).symm
  refine ⟨fun j hj => hall j (Nat.zero_le _) (by omega), ?_⟩
  rw [hy, this, zero_add]
  simp only [Nat.zero_add]

end Verif.Lobpcg
