import Verif.Model.Coo
import Verif.Lemmas.QSort
import Verif.Spec.Entries

/-! The three-array quicksort of `COO` simulates the quicksort on one list of triples. -/

namespace Verif

namespace Coo

variable {α : Type}

/-- the code's comparison on entries -/
def ecmp (x y : Entry α) : Int :=
  if x.1 ≠ y.1 then (x.1 : Int) - y.1 else (x.2.1 : Int) - y.2.1

theorem ecmp_le {x y : Entry α} :
    ecmp x y ≤ 0 ↔ x.1 < y.1 ∨ (x.1 = y.1 ∧ x.2.1 ≤ y.2.1) := by
  unfold ecmp; split <;> omega

theorem ecmp_ge {x y : Entry α} :
    ecmp x y ≥ 0 ↔ y.1 < x.1 ∨ (x.1 = y.1 ∧ y.2.1 ≤ x.2.1) := by
  unfold ecmp; split <;> omega

theorem ecmp_ok : QS.CmpOk (ecmp (α := α)) where
  flip x y := by rw [ecmp_ge, ecmp_le]; omega
  trans x y z := by simp only [ecmp_le]; omega

def rows (Z : List (Entry α)) : List Nat := Z.map (·.1)
def cols (Z : List (Entry α)) : List Nat := Z.map (·.2.1)
def vals (Z : List (Entry α)) : List α := Z.map (·.2.2)

theorem sim_cmpAt {Z : List (Entry α)} {i j : Nat} {d : Int}
    (h : QS.cmpAt ecmp Z i j = .ok d) : cmpAt (rows Z) (cols Z) i j = .ok d := by
  simp only [QS.cmpAt, Res.bind_eq_ok, rd_eq_ok] at h
  obtain ⟨x, hx, y, hy, h⟩ := h
  have e1 : rd (rows Z) i = .ok x.1 := by simp [rd_eq_ok, rows, hx]
  have e2 : rd (rows Z) j = .ok y.1 := by simp [rd_eq_ok, rows, hy]
  have e3 : rd (cols Z) i = .ok x.2.1 := by simp [rd_eq_ok, cols, hx]
  have e4 : rd (cols Z) j = .ok y.2.1 := by simp [rd_eq_ok, cols, hy]
  simp only [cmpAt, e1, e2, e3, e4, Res.ok_bind, ← h, ecmp]
  split <;> rfl

theorem sim_scanUp {Z : List (Entry α)} {p hh : Nat} : ∀ n l l',
    QS.scanUp ecmp Z p hh n l = .ok l' → scanUp (rows Z) (cols Z) p hh n l = .ok l' := by
  intro n
  induction n with
  | zero => intro l l' h; exact h
  | succ n ih =>
    intro l l' h
    simp only [QS.scanUp, scanUp] at h ⊢
    split at h
    · rename_i hl
      simp only [hl, if_true]
      obtain ⟨d, hd, h⟩ := Res.bind_eq_ok.1 h
      rw [sim_cmpAt hd, Res.ok_bind]
      split at h
      · rename_i hd0; simp only [hd0, if_true]; exact ih _ _ h
      · rename_i hd0; simp only [hd0, if_false]; exact h
    · rename_i hl; simp only [hl, if_false]; exact h

theorem sim_scanDown {Z : List (Entry α)} {p ll : Nat} : ∀ n l l',
    QS.scanDown ecmp Z p ll n l = .ok l' → scanDown (rows Z) (cols Z) p ll n l = .ok l' := by
  intro n
  induction n with
  | zero => intro l l' h; exact h
  | succ n ih =>
    intro l l' h
    simp only [QS.scanDown, scanDown] at h ⊢
    split at h
    · rename_i hl
      simp only [hl, if_true]
      obtain ⟨d, hd, h⟩ := Res.bind_eq_ok.1 h
      rw [sim_cmpAt hd, Res.ok_bind]
      split at h
      · rename_i hd0; simp only [hd0, if_true]; exact ih _ _ h
      · rename_i hd0; simp only [hd0, if_false]; exact h
    · rename_i hl; simp only [hl, if_false]; exact h

theorem sim_swap {β : Type} (f : Entry α → β) {Z Z' : List (Entry α)} {i j : Nat}
    (h : QS.swapBuf Z i j = .ok Z') : swapBuf (Z.map f) i j = .ok (Z'.map f) := by
  simp only [QS.swapBuf, Res.bind_eq_ok, rd_eq_ok, wr_eq_ok] at h
  obtain ⟨t, ht, u, hu, b, ⟨hb1, hb2⟩, h1, h2⟩ := h
  subst hb2; subst h2
  have e1 : rd (Z.map f) i = .ok (f t) := by simp [rd_eq_ok, ht]
  have e2 : rd (Z.map f) j = .ok (f u) := by simp [rd_eq_ok, hu]
  simp only [swapBuf, e1, e2, Res.ok_bind]
  rw [wr_ok (by simpa using hb1), Res.ok_bind, wr_ok (by simpa using h1)]
  simp [List.map_set]

theorem sim_partLoop {p : Nat} : ∀ n l hh (Z Z' : List (Entry α)) l',
    QS.partLoop ecmp p n l hh Z = .ok (l', Z') →
    partLoop p n l hh (rows Z) (cols Z) (vals Z) = .ok (l', rows Z', cols Z', vals Z') := by
  intro n
  induction n with
  | zero => intro l hh Z Z' l' h; simp [QS.partLoop] at h
  | succ n ih =>
    intro l hh Z Z' l' h
    simp only [QS.partLoop, partLoop] at h ⊢
    obtain ⟨a, ha, h⟩ := Res.bind_eq_ok.1 h
    obtain ⟨b, hb, h⟩ := Res.bind_eq_ok.1 h
    rw [sim_scanUp _ _ _ ha, Res.ok_bind, sim_scanDown _ _ _ hb, Res.ok_bind]
    split at h
    · rename_i hl
      simp only [hl, if_true]
      obtain ⟨Y, hY, h⟩ := Res.bind_eq_ok.1 h
      have e1 : swapBuf (rows Z) a b = .ok (rows Y) := sim_swap _ hY
      have e2 : swapBuf (cols Z) a b = .ok (cols Y) := sim_swap _ hY
      have e3 : swapBuf (vals Z) a b = .ok (vals Y) := sim_swap _ hY
      rw [e1, Res.ok_bind, e2, Res.ok_bind, e3, Res.ok_bind]
      exact ih _ _ _ _ _ h
    · rename_i hl
      simp only [hl, if_false]
      cases h; rfl

theorem sim_qSort : ∀ n lo hi1 (Z Z' : List (Entry α)),
    QS.qSort ecmp n lo hi1 Z = .ok Z' →
    qSort n lo hi1 (rows Z) (cols Z) (vals Z) = .ok (rows Z', cols Z', vals Z') := by
  intro n
  induction n with
  | zero => intro lo hi1 Z Z' h; simp [QS.qSort] at h
  | succ n ih =>
    intro lo hi1 Z Z' h
    simp only [QS.qSort, qSort] at h ⊢
    split at h
    · rename_i hl; simp only [hl, if_true]; cases h; rfl
    · rename_i hl
      simp only [hl, if_false]
      obtain ⟨x, hx, h⟩ := Res.bind_eq_ok.1 h
      obtain ⟨⟨l, Y⟩, hY, h⟩ := Res.bind_eq_ok.1 h
      obtain ⟨y, hy, h⟩ := Res.bind_eq_ok.1 h
      obtain ⟨b, hb, h⟩ := Res.bind_eq_ok.1 h
      obtain ⟨c, hc, h⟩ := Res.bind_eq_ok.1 h
      rw [rd_eq_ok] at hx hy
      rw [wr_eq_ok] at hb hc
      obtain ⟨hb1, rfl⟩ := hb
      obtain ⟨hc1, rfl⟩ := hc
      have e1 : rd (rows Z) (hi1 - 1) = .ok x.1 := by simp [rd_eq_ok, rows, hx]
      have e2 : rd (cols Z) (hi1 - 1) = .ok x.2.1 := by simp [rd_eq_ok, cols, hx]
      have e3 : rd (vals Z) (hi1 - 1) = .ok x.2.2 := by simp [rd_eq_ok, vals, hx]
      have f1 : rd (rows Y) l = .ok y.1 := by simp [rd_eq_ok, rows, hy]
      have f2 : rd (cols Y) l = .ok y.2.1 := by simp [rd_eq_ok, cols, hy]
      have f3 : rd (vals Y) l = .ok y.2.2 := by simp [rd_eq_ok, vals, hy]
      have hc2 : l < Y.length := by simpa using hc1
      simp only [e1, e2, e3, Res.ok_bind, sim_partLoop _ _ _ _ _ _ hY, f1, f2, f3]
      rw [wr_ok (by simpa [rows] using hb1), Res.ok_bind, wr_ok (by simpa [rows] using hc2),
        Res.ok_bind, wr_ok (by simpa [cols] using hb1), Res.ok_bind,
        wr_ok (by simpa [cols] using hc2), Res.ok_bind, wr_ok (by simpa [vals] using hb1),
        Res.ok_bind, wr_ok (by simpa [vals] using hc2), Res.ok_bind]
      have g1 : ((rows Y).set (hi1 - 1) y.1).set l x.1 = rows ((Y.set (hi1 - 1) y).set l x) := by
        simp [rows, List.map_set]
      have g2 : ((cols Y).set (hi1 - 1) y.2.1).set l x.2.1 = cols ((Y.set (hi1 - 1) y).set l x) := by
        simp [cols, List.map_set]
      have g3 : ((vals Y).set (hi1 - 1) y.2.2).set l x.2.2 = vals ((Y.set (hi1 - 1) y).set l x) := by
        simp [vals, List.map_set]
      rw [g1, g2, g3]
      split at h
      · rename_i hs
        simp only [hs, if_true]
        obtain ⟨W, hW, h⟩ := Res.bind_eq_ok.1 h
        rw [ih _ _ _ _ hW, Res.ok_bind]
        exact ih _ _ _ _ h
      · rename_i hs
        simp only [hs, if_false]
        obtain ⟨W, hW, h⟩ := Res.bind_eq_ok.1 h
        rw [ih _ _ _ _ hW, Res.ok_bind]
        exact ih _ _ _ _ h

end Coo
end Verif
