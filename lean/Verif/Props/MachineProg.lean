import Verif.Props.MachineCrs
import Verif.Props.Gen
import Verif.Props.CooSort

/-!
C99, continued: programs, and sizes that do not fit.
-/

namespace Verif.Machine

open Verif.Spec

variable {α : Type}

theorem insert_nnz [Zero α] {A A' : Coo α} {m n : Nat} {v : α} (h : A.insert m n v = .ok A') :
    A'.nnz = A.nnz + 1 := by
  unfold Coo.insert at h
  split at h
  · obtain ⟨_, _, h⟩ := Res.bind_eq_ok.1 h
    obtain ⟨_, _, h⟩ := Res.bind_eq_ok.1 h
    dsimp only at h
    split at h
    · obtain ⟨B, hB, h⟩ := Res.bind_eq_ok.1 h
      obtain ⟨B', hB', h⟩ := Res.bind_eq_ok.1 h
      cases hB'
      obtain ⟨r, _, h⟩ := Res.bind_eq_ok.1 h
      obtain ⟨c, _, h⟩ := Res.bind_eq_ok.1 h
      obtain ⟨w, _, h⟩ := Res.bind_eq_ok.1 h
      cases h
      rfl
    · obtain ⟨B, hB, h⟩ := Res.bind_eq_ok.1 h
      cases hB
      obtain ⟨r, _, h⟩ := Res.bind_eq_ok.1 h
      obtain ⟨c, _, h⟩ := Res.bind_eq_ok.1 h
      obtain ⟨w, _, h⟩ := Res.bind_eq_ok.1 h
      cases h
      rfl
  · cases h

theorem insertAll_sim [Zero α] : ∀ (L : List (Entry α)) (A : Coo α), SmallCoo A →
    A.nnz + L.length ≤ 2147483647 → SameOutcome IsCoo (Coo.insertAll L A) (insertAllM L (mcoo A)) := by
  intro L
  induction L with
  | nil => intro A h _; exact ⟨rfl, h⟩
  | cons e L ih =>
    intro A h hn
    rw [List.length_cons] at hn
    unfold Coo.insertAll insertAllM
    refine sim_bind (sim_and (C99_insert h (by omega) _ _ _) (P := fun B => B.nnz = A.nnz + 1)
      (fun B hB => insert_nnz hB)) (fun B M ⟨⟨hM, hB⟩, hk⟩ => ?_)
    subst hM
    exact ih B hB (by omega)

/-- **C99, programs**: a program that builds a matrix with at most `INT_MAX` rows, columns and inserts, sorts
it, converts it, transposes it and multiplies it by a vector does the same with machine integers as with
unbounded ones; in particular no signed overflow. -/
theorem C99_program [Zero α] [One α] [Add α] [Mul α] {r c : Nat} (hr : r ≤ 2147483647)
    (hc : c ≤ 2147483647) {L : List (Entry α)} (hL : L.length ≤ 2147483647) (merge tr : Bool)
    (order : List Nat) (x y : Win α) :
    SameOutcome (fun a b => a = b) (productOf r c L merge tr order x y)
      (productOfM r c L merge tr order x y) := by
  unfold productOf productOfM
  refine sim_bind (insertAll_sim L (Coo.new r c) ⟨hr, hc, by show 0 ≤ _; omega, by simp [Coo.new], by simp [Coo.new]⟩
    (by show 0 + L.length ≤ _; omega)) (fun A M ⟨hM, hA⟩ => ?_)
  subst hM
  refine sim_bind (C99_sort hA merge) (fun A M ⟨hM, hA⟩ => ?_)
  subst hM
  refine sim_bind (C99_convert_crs (A := Crs.empty) ⟨Nat.zero_le _, Nat.zero_le _, Nat.zero_le _, by simp [Crs.empty],
    by simp [Crs.empty]⟩ hA) (fun B M ⟨hM, hB⟩ => ?_)
  subst hM
  have h : SameOutcome IsCrs (if tr = true then B.transpose else .ok B)
      (if tr = true then (mcrs B).transpose else .ok (mcrs B)) :=
    sim_ite Iff.rfl (fun _ => C99_transpose hB) (fun _ => ⟨rfl, hB⟩)
  refine sim_bind h (fun B M ⟨hM, hB⟩ => ?_)
  subst hM
  exact C99_matvec hB order x y

/-- a case of `C99_program`: `[0 3; 2 0]^T (1, 10)` -/
example : productOfM 2 2 [(1, 0, (2 : Int)), (0, 1, 3)] true true [0, 1] ⟨[1, 10], 0, 2⟩ ⟨[0, 0], 0, 2⟩ =
    .ok ⟨[20, 3], 0, 2⟩ := by decide

/-! ### The grid Laplacian -/

/-- states: the matrix with machine integers and the number of inserts so far -/
def LapRel (k : Nat) (A : Coo α) (s : Int × MCoo α) : Prop :=
  IsCoo A s.2 ∧ s.1 = A.nnz ∧ A.nnz ≤ k

theorem lapInsert_sim [Zero α] (c : Bool) (k : Nat) (hk : k + 1 ≤ 2147483647) {A : Coo α} {s : Int × MCoo α}
    (h : LapRel k A s) (i j : Int) (v : α) :
    SameOutcome (LapRel (k + 1)) (Gen.insertIf c A i j v) (lapInsert c s i j v) := by
  obtain ⟨t, M⟩ := s
  obtain ⟨⟨hM, hA⟩, e, hn⟩ := h
  dsimp only at hM e
  subst hM e
  unfold Gen.insertIf lapInsert
  have gs : Gen.toSize = toSize := rfl
  unfold Gen.insertI
  rw [gs]
  refine sim_ite Iff.rfl (fun _ => ?_) (fun _ => ⟨⟨rfl, hA⟩, rfl, by omega⟩)
  have h1 := sim_and (C99_insert hA (by omega) (toSize i) (toSize j) v) (P := fun B => B.nnz = A.nnz + 1)
    (fun B hB => insert_nnz hB)
  have h2 : SameOutcome (LapRel (k + 1)) (A.insert (toSize i) (toSize j) v >>= Res.ok)
      ((mcoo A).insert (toSize i) (toSize j) v >>= fun B => do
        let k ← chk ((A.nnz : Int) + 1)
        .ok (k, B)) := by
    apply sim_bind h1
    intro B M hBM
    have hB := hBM.1
    have hk : B.nnz = A.nnz + 1 := hBM.2
    rw [chk_ok (by omega) (by omega), Res.ok_bind]
    exact ⟨hB, by show (A.nnz : Int) + 1 = B.nnz; omega, by omega⟩
  have e : ∀ r : Res (Coo α), (r >>= Res.ok) = r := by intro r; cases r <;> rfl
  rw [e] at h2
  exact h2

theorem sim_forI_idx {A B : Type} {R : Nat → A → B → Prop} {body : Nat → A → Res A}
    {body' : Int → B → Res B} {n : Nat}
    (hb : ∀ i s t, i < n → R i s t → SameOutcome (R (i + 1)) (body i s) (body' (i : Int) t))
    {s : A} {t : B} (h : R 0 s t) : SameOutcome (R n) (forN n body s) (forI 0 (n : Int) body' t) := by
  have key : ∀ (k lo : Nat), lo + k = n → ∀ {s : A} {t : B}, R lo s t →
      SameOutcome (R n) (forFrom lo k body s) (forFromI (lo : Int) k body' t) := by
    intro k
    induction k with
    | zero => intro lo e s t h; rw [← e]; exact h
    | succ k ih =>
      intro lo e s t h
      unfold forFrom forFromI
      refine sim_bind (hb lo s t (by omega) h) (fun a b hab => ?_)
      have := ih (lo + 1) (by omega) hab
      rwa [show ((lo + 1 : Nat) : Int) = (lo : Int) + 1 from by omega] at this
  unfold forI
  rw [show ((n : Int) - 0).toNat = n from by omega]
  exact key n 0 (by omega) h

/-- **C99, grid Laplacian**: for grids of up to 429496729 points (`5 m n` at most `INT_MAX`), no overflow -/
theorem C99_laplacian [Ring α] {m n : Nat} (h : 5 * (m * n) ≤ 2147483647) :
    SameOutcome IsCoo (Gen.laplacian2D m n : Res (Coo α)) (laplacian2D m n) := by
  unfold Gen.laplacian2D laplacian2D
  have hmn : (m : Int) * n = ((m * n : Nat) : Int) := by push_cast; rfl
  rw [hmn, chk_ok (by omega) (by omega), Res.ok_bind, toSize_small (by omega)]
  have e1 : ∀ r : Res (Coo α), (r >>= Res.ok) = r := by intro r; cases r <;> rfl
  rw [← e1 (forN _ _ _)]
  have hc : ((-1 : Int) : α) = -1 := by simp
  refine sim_bind (R := LapRel (5 * (m * n))) (sim_forI_idx (R := fun i => LapRel (5 * i)) ?_ ?_) ?_
  · intro ii A s hi hs
    dsimp only
    rw [hc]
    have hd : (ii : Int) / (m : Int) = ((ii / m : Nat) : Int) := by push_cast; rfl
    rw [hd]
    have hp : decide ((((ii / m : Nat) : Int)) > 0) = decide (ii / m > 0) := by
      rw [decide_eq_decide]; omega
    rw [hp]
    refine sim_bind (lapInsert_sim _ (5 * ii) (by omega) hs _ _ _) (fun A s hs => ?_)
    refine sim_bind (lapInsert_sim _ (5 * ii + 1) (by omega) hs _ _ _) (fun A s hs => ?_)
    refine sim_bind (lapInsert_sim true (5 * ii + 2) (by omega) hs _ _ _) (fun A s hs => ?_)
    refine sim_bind (lapInsert_sim _ (5 * ii + 3) (by omega) hs _ _ _) (fun A s hs => ?_)
    exact lapInsert_sim _ (5 * ii + 4) (by omega) hs _ _ _
  · refine ⟨⟨rfl, ?_⟩, rfl, Nat.zero_le _⟩
    exact ⟨by show m * n ≤ _; omega, by show m * n ≤ _; omega, Nat.zero_le _, by simp [Coo.new],
      by simp [Coo.new]⟩
  · intro A s hs
    exact hs.1

end Verif.Machine
