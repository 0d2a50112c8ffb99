import Verif.Model.Gen
import Verif.Spec.GenSpec
import Verif.Lemmas.CooBasic
import Verif.Lemmas.Entries

namespace Verif
namespace Gen

open Spec

variable {α : Type}

theorem toSize_nat {k : Nat} (h : k < 18446744073709551616) : toSize (k : Int) = k := by
  unfold toSize; omega

theorem toSize_of {z : Int} {k : Nat} (hz : z = k) (h : k < 18446744073709551616) :
    toSize z = k := by
  subst hz; exact toSize_nat h

/-- all entries before position `(i, j)` have been produced -/
structure Built (A : Coo α) (M N : Nat) (S : Nat → Nat → Prop) (f : Nat → Nat → α) (i j : Nat) :
    Prop where
  wf : A.WF
  rows : A.rowN = M
  cols : A.colN = N
  order : StrictLex A.entries
  stored : ∀ r c v, (r, c, v) ∈ A.entries ↔
    (r < i ∧ c < N ∨ r = i ∧ c < j) ∧ S r c ∧ v = f r c

theorem Built.new {M N : Nat} {S : Nat → Nat → Prop} {f : Nat → Nat → α} :
    Built (Coo.new M N) M N S f 0 0 :=
  ⟨Coo.new_wf M N, rfl, rfl, List.Pairwise.nil, by intro r c v; simp⟩

theorem Built.skip {A : Coo α} {M N : Nat} {S : Nat → Nat → Prop} {f : Nat → Nat → α} {i j j' : Nat}
    (h : Built A M N S f i j) (hj : j ≤ j') (hs : ∀ k, j ≤ k → k < j' → ¬ S i k) :
    Built A M N S f i j' := by
  refine ⟨h.wf, h.rows, h.cols, h.order, fun r c v => ?_⟩
  rw [h.stored]
  constructor
  · rintro ⟨h1, h2⟩; exact ⟨by omega, h2⟩
  · rintro ⟨h1, h2⟩
    refine ⟨?_, h2⟩
    rcases h1 with h1 | ⟨rfl, h1⟩
    · exact .inl h1
    · refine .inr ⟨rfl, ?_⟩
      rcases Nat.lt_or_ge c j with hc | hc
      · exact hc
      · exact absurd h2.1 (hs c hc h1)

theorem Built.newRow {A : Coo α} {M N : Nat} {S : Nat → Nat → Prop} {f : Nat → Nat → α} {i j : Nat}
    (h : Built A M N S f i j) (hj : j ≤ N) (hs : ∀ k, j ≤ k → k < N → ¬ S i k) :
    Built A M N S f (i + 1) 0 := by
  have h := h.skip hj hs
  refine ⟨h.wf, h.rows, h.cols, h.order, fun r c v => ?_⟩
  rw [h.stored]
  constructor
  · rintro ⟨h1, h2⟩; exact ⟨by omega, h2⟩
  · rintro ⟨h1, h2⟩; exact ⟨by omega, h2⟩

theorem Built.insert [Zero α] {A : Coo α} {M N : Nat} {S : Nat → Nat → Prop} {f : Nat → Nat → α}
    {i j j' : Nat} {zi zj : Int} {v : α}
    (h : Built A M N S f i j) (hj : j ≤ j') (hs : ∀ k, j ≤ k → k < j' → ¬ S i k)
    (hS : S i j') (hv : v = f i j') (hi : i < M) (hj' : j' < N)
    (zi_eq : zi = i) (zj_eq : zj = j') (hM : M < 18446744073709551616)
    (hN : N < 18446744073709551616) :
    (insertI A zi zj v).Sat (fun A' => Built A' M N S f i (j' + 1)) := by
  unfold insertI
  rw [toSize_of zi_eq (by omega), toSize_of zj_eq (by omega)]
  have h := h.skip hj hs
  refine (Coo.insert_ok h.wf (by have := h.rows; omega) (by have := h.cols; omega)).mono ?_
  rintro A' ⟨hwf, hr, hc, he⟩
  refine ⟨hwf, by rw [hr, h.rows], by rw [hc, h.cols], ?_, ?_⟩
  · rw [he]
    refine List.pairwise_append.2 ⟨h.order, by simp, ?_⟩
    rintro ⟨r, c, w⟩ hx ⟨r', c', w'⟩ hy
    have hx := (h.stored r c w).1 hx
    simp only [List.mem_singleton, Prod.mk.injEq] at hy
    simp only
    omega
  · intro r c w
    rw [he]
    simp only [List.mem_append, List.mem_singleton, h.stored, Prod.mk.injEq]
    constructor
    · rintro (⟨h1, h2⟩ | ⟨rfl, rfl, rfl⟩)
      · exact ⟨by omega, h2⟩
      · exact ⟨by omega, hS, hv⟩
    · rintro ⟨h1, h2, h3⟩
      rcases h1 with h1 | ⟨rfl, h1⟩
      · exact .inl ⟨.inl h1, h2, h3⟩
      · rcases Nat.lt_or_ge c j' with hc | hc
        · exact .inl ⟨.inr ⟨rfl, hc⟩, h2, h3⟩
        · have : c = j' := by omega
          subst this
          exact .inr ⟨rfl, rfl, by rw [h3, hv]⟩

theorem Built.done {A : Coo α} {M N : Nat} {S : Nat → Nat → Prop} {f : Nat → Nat → α}
    (h : Built A M N S f M 0) : IsMatrix A M N S f := by
  refine ⟨h.wf, h.rows, h.cols, h.order, fun r c v => ?_⟩
  rw [h.stored]
  constructor
  · rintro ⟨h1, h2⟩; exact ⟨by omega, by omega, h2⟩
  · rintro ⟨h1, h2, h3⟩; exact ⟨by omega, h3⟩

end Gen

namespace Spec

variable {α : Type}

theorem IsMatrix.at_ [Zero α] {A : Coo α} {M N : Nat} {S : Nat → Nat → Prop} {f : Nat → Nat → α}
    [∀ i j, Decidable (S i j)] (h : IsMatrix A M N S f) {i j : Nat} (hi : i < M) (hj : j < N) :
    A.at_ i j = .ok (if S i j then f i j else 0) := by
  rw [Coo.at_ok h.wf (by have := h.rows; omega) (by have := h.cols; omega)]
  split
  · next hs =>
    exact congrArg _ (lastAt_of_mem h.order.distinct ((h.stored i j (f i j)).2 ⟨hi, hj, hs, rfl⟩))
  · next hs =>
    rw [lastAt_of_not_mem]
    rintro ⟨r, c, v⟩ he ⟨h1, h2⟩
    simp only at h1 h2
    subst h1 h2
    exact hs ((h.stored _ _ _).1 he).2.2.1

/-- the stored entries are determined by the description -/
theorem IsMatrix.nnz_le {A : Coo α} {M N : Nat} {S : Nat → Nat → Prop} {f : Nat → Nat → α}
    (h : IsMatrix A M N S f) : Within M N A.entries := by
  rintro ⟨r, c, v⟩ he
  have := (h.stored r c v).1 he
  exact ⟨this.1, this.2.1⟩

end Spec
end Verif
