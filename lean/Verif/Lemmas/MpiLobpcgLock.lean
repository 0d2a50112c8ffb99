import Verif.Lemmas.MpiLobpcg

/-!
Lemmas for C118: processes in lock step.
-/

namespace Verif.MpiLobpcg

open Verif.Solver Verif.Lapack Verif.MpiSolver Verif.Lobpcg

variable {α β γ : Type} {P : Nat} {N : Num α} {comb : (Fin P → α) → α}

/-- all processes get through, together, with results in `R` -/
def Lock (comb : (Fin P → α) → α) (ps : Fin P → Proc α β) (R : (Fin P → β) → Prop) : Prop :=
  ∃ r, Completes comb ps (fun i => .ok (r i)) ∧ R r

theorem completes_bind {ps : Fin P → Proc α β} {q : Fin P → Res β} (h : Completes comb ps q) :
    ∀ {r : Fin P → β}, (q = fun i => .ok (r i)) → ∀ {k : Fin P → β → Proc α γ} {t : Fin P → Res γ},
    Completes comb (fun i => k i (r i)) t → Completes comb (fun i => ps i >>= k i) t := by
  induction h with
  | done q =>
    intro r hr k t ht
    have : (fun i => (Proc.ret (q i) : Proc α β) >>= k i) = fun i => k i (r i) := by
      funext i
      rw [hr]; rfl
    rw [this]; exact ht
  | step v c q _ ih =>
    intro r hr k t ht
    exact .step v (fun i x => c i x >>= k i) t (ih hr ht)

theorem Lock.bind {ps : Fin P → Proc α β} {R : (Fin P → β) → Prop} (h : Lock comb ps R) {k : Fin P → β → Proc α γ}
    {R' : (Fin P → γ) → Prop} (hk : ∀ r, R r → Lock comb (fun i => k i (r i)) R') : Lock comb (fun i => ps i >>= k i) R' := by
  obtain ⟨r, hc, hr⟩ := h
  obtain ⟨t, ht, hR⟩ := hk r hr
  exact ⟨t, completes_bind hc rfl ht, hR⟩

theorem lock_pure {b : Fin P → β} {R : (Fin P → β) → Prop} (h : R b) : Lock comb (fun i => (pure (b i) : Proc α β)) R :=
  ⟨b, .done _, h⟩

/-- a local step that succeeds everywhere -/
theorem lock_loc {m : Fin P → Res β} {Q : Fin P → β → Prop} (hm : ∀ i, ∃ b, m i = .ok b ∧ Q i b)
    {k : Fin P → β → Proc α γ} {R : (Fin P → γ) → Prop}
    (h : ∀ b : Fin P → β, (∀ i, Q i (b i)) → Lock comb (fun i => k i (b i)) R) :
    Lock comb (fun i => loc (m i) >>= k i) R := by
  choose b hb hQ using hm
  obtain ⟨t, ht, hR⟩ := h b hQ
  refine ⟨t, ?_, hR⟩
  have : (fun i => (loc (m i) : Proc α β) >>= k i) = fun i => k i (b i) := by
    funext i; rw [hb]; rfl
  rw [this]; exact ht

theorem lock_nrm2 {x : Fin P → List α} {k : Fin P → α → Proc α γ} {R : (Fin P → γ) → Prop}
    (h : ∀ c, Lock comb (fun i => k i c) R) : Lock comb (fun i => MpiSolver.nrm2 N (x i) >>= k i) R := by
  obtain ⟨t, ht, hR⟩ := h (N.sqrt (comb fun i => N.sum (List.zipWith N.mul (x i) (x i))))
  exact ⟨t, .step (fun i => N.sum (List.zipWith N.mul (x i) (x i))) _ _ ht, hR⟩

theorem lock_dot {x y : Fin P → List α} (hxy : ∀ i, (x i).length = (y i).length) {k : Fin P → α → Proc α γ}
    {R : (Fin P → γ) → Prop} (h : ∀ c, Lock comb (fun i => k i c) R) :
    Lock comb (fun i => MpiSolver.dot N (x i) (y i) >>= k i) R := by
  obtain ⟨t, ht, hR⟩ := h (comb fun i => N.sum (List.zipWith N.mul (x i) (y i)))
  refine ⟨t, ?_, hR⟩
  have : (fun i => MpiSolver.dot N (x i) (y i) >>= k i) = fun i =>
      Proc.red (N.sum (List.zipWith N.mul (x i) (y i))) (k i) := by
    funext i
    unfold MpiSolver.dot
    rw [cassert_decide (hxy i)]
    rfl
  rw [this]
  exact .step _ _ _ ht

/-! ### Sizes -/

structure FamOk (m n : Nat) (f : Fam α) : Prop where
  w : Rows m n f.w
  x : Rows m n f.x
  p : Rows m n f.p

/-- the state of a process; `g` is the generalised solver -/
structure StOk (g : Bool) (m n : Nat) (s : St α) : Prop where
  F : FamOk m n s.F
  G : FamOk m n s.G
  H : g = true → FamOk m n s.H
  l : s.l.length = m
  lam : s.lam.length = 3 * m

theorem Rows.get {m n : Nat} {x : List (List α)} (h : Rows m n x) {j : Nat} (hj : j < m) :
    ∃ v, rd x j = .ok v ∧ v.length = n := by
  have hj' : j < x.length := by rw [h.1]; exact hj
  exact ⟨x[j], rd_ok hj', h.2 _ (List.getElem_mem _)⟩

theorem Rows.set {m n : Nat} {x : List (List α)} (h : Rows m n x) (j : Nat) {v : List α} (hv : v.length = n) :
    Rows m n (x.set j v) := by
  refine ⟨by rw [List.length_set]; exact h.1, fun u hu => ?_⟩
  rcases List.mem_or_eq_of_mem_set hu with h' | h'
  · exact h.2 u h'
  · rw [h']; exact hv

theorem FamOk.put {m n : Nat} {f : Fam α} (h : FamOk m n f) (j : Nat) {w x p : List α} (hw : w.length = n) (hx : x.length = n)
    (hp : p.length = n) : FamOk m n (f.put j w x p) :=
  ⟨h.w.set j hw, h.x.set j hx, h.p.set j hp⟩

theorem rows_length {m n : Nat} {f : Fam α} (h : FamOk m n f) : f.rows.length = 3 * m := by
  unfold Fam.rows
  rw [List.length_append, List.length_append, h.w.1, h.x.1, h.p.1]; omega

theorem scal_length (N : Num α) (a : α) (x : List α) : (scal N a x).length = x.length := by simp [scal]

theorem axpy_ok (N : Num α) (a : α) {x y : List α} {n : Nat} (hx : x.length = n) (hy : y.length = n) :
    ∃ z, N.axpy a x y = .ok z ∧ z.length = n := by
  unfold Num.axpy
  rw [cassert_decide (by rw [hx, hy]), Res.ok_bind]
  exact ⟨_, rfl, by rw [List.length_zipWith, hx, hy, Nat.min_self]⟩

theorem axpyz_ok (N : Num α) (a : α) {x y : List α} {n : Nat} (hx : x.length = n) (hy : y.length = n) :
    ∃ z, N.axpyz a x y n = .ok z ∧ z.length = n := by
  unfold Num.axpyz
  rw [cassert_decide (by rw [hx, hy]; exact ⟨rfl, rfl⟩), Res.ok_bind]
  exact ⟨_, rfl, by rw [List.length_zipWith, hx, hy, Nat.min_self]⟩

theorem combine_ok (N : Num α) {m n : Nat} {b : List α} (hb : b.length = 3 * m) {f : Fam α} (hf : FamOk m n f)
    {z : List α} (hz : z.length = n) :
    ∃ px, combine N m b f z = .ok px ∧ px.1.length = n ∧ px.2.length = n := by
  have : (combine N m b f z).Sat (fun px => px.1.length = n ∧ px.2.length = n) := by
    unfold combine
    refine forN_sat (fun _ (px : List α × List α) => px.1.length = n ∧ px.2.length = n) ⟨hz, hz⟩ ?_
    intro j s hj hs
    obtain ⟨w, hw, lw⟩ := hf.w.get hj
    obtain ⟨x, hx, lx⟩ := hf.x.get hj
    obtain ⟨p, hp, lp⟩ := hf.p.get hj
    obtain ⟨p1, e1, l1⟩ := axpy_ok N b[j] lw hs.1
    obtain ⟨p2, e2, l2⟩ := axpy_ok N b[2 * m + j] lp l1
    obtain ⟨x1, e3, l3⟩ := axpy_ok N b[j] lw hs.2
    obtain ⟨x2, e4, l4⟩ := axpy_ok N b[2 * m + j] lp l3
    obtain ⟨x3, e5, l5⟩ := axpy_ok N b[m + j] lx l4
    rw [rd_ok (i := j) (by omega), Res.ok_bind, rd_ok (i := m + j) (by omega), Res.ok_bind,
      rd_ok (i := 2 * m + j) (by omega), Res.ok_bind, hw, Res.ok_bind, hx, Res.ok_bind, hp, Res.ok_bind, e1, Res.ok_bind,
      e2, Res.ok_bind, e3, Res.ok_bind, e4, Res.ok_bind, e5, Res.ok_bind]
    exact Res.sat_ok.mpr ⟨l2, l5⟩
  exact this

theorem coeffs_ok (N : Num α) {m k : Nat} (hk : k = 2 * m ∨ k = 3 * m) {S : List α} (hS : S.length = k * k) {i : Nat}
    (hi : i < m) : ∃ b, coeffs N m k S i = .ok b ∧ b.length = 3 * m := by
  have hik : i * k + k ≤ S.length := by
    rw [hS]
    have : (i + 1) * k ≤ k * k := Nat.mul_le_mul_right _ (by omega)
    rw [Nat.add_mul, Nat.one_mul] at this
    exact this
  unfold coeffs rowOf
  rw [if_pos hik, Res.ok_bind]
  refine ⟨_, rfl, ?_⟩
  rw [List.length_append, List.length_take, List.length_drop, List.length_replicate]
  rcases hk with h | h <;> omega

theorem mvInto_ok {A : Mat α} {n : Nat} (hr : A.row = n) (hA : Works n A.mv) {x : List α} (hx : x.length = n) :
    ∃ y, mvInto A n x = .ok y ∧ y.length = n := by
  obtain ⟨y, hy, h⟩ := hA x hx
  unfold mvInto
  rw [cassert_decide hr, Res.ok_bind]
  exact ⟨y, h, hy⟩

theorem gram_length (N : Num α) (R f : List (List α)) : (gram N R f).length = R.length * f.length := by
  unfold gram
  induction R with
  | nil => simp
  | cons a R ih =>
    rw [List.flatMap_cons, List.length_append, ih, List.length_map, List.length_cons, Nat.add_mul, Nat.one_mul, Nat.add_comm]

end Verif.MpiLobpcg
