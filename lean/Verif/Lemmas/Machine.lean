import Verif.Spec.MachineSpec
import Mathlib.Tactic.Linarith

/-! Simulation of the models with natural numbers by those with machine integers. -/

namespace Verif.Machine

open Verif.Spec

/-! ### Integers -/

theorem toInt_small {n : Nat} (h : n ≤ 2147483647) : toInt n = n := by
  unfold toInt
  rw [Int.bmod_def]
  split <;> omega

theorem toSize_small {n : Nat} (h : n ≤ 2147483647) : toSize n = n := by
  unfold toSize
  omega

theorem chk_ok {z : Int} (h : -2147483648 ≤ z) (h' : z < 2147483648) : chk z = .ok z := by
  unfold chk
  rw [if_pos ⟨h, h'⟩]

/-! ### Simulation -/

section sim

variable {A B C D : Type} {R : A → B → Prop} {S : C → D → Prop}

theorem sim_bind {r : Res A} {m : Res B} (h : SameOutcome R r m) {f : A → Res C} {g : B → Res D}
    (hf : ∀ a b, R a b → SameOutcome S (f a) (g b)) : SameOutcome S (r >>= f) (m >>= g) := by
  cases r <;> cases m <;> simp only [SameOutcome] at h
  · exact hf _ _ h
  · exact h
  · exact h
  · exact trivial

theorem sim_mono {R' : A → B → Prop} {r : Res A} {m : Res B} (h : SameOutcome R r m)
    (hR : ∀ a b, R a b → R' a b) : SameOutcome R' r m := by
  cases r <;> cases m <;> simp only [SameOutcome] at h ⊢
  · exact hR _ _ h
  · exact h
  · exact h

theorem sim_refl (r : Res A) : SameOutcome (fun a b => a = b) r r := by
  cases r <;> simp [SameOutcome]

/-- only the left side needs to be looked at for an invariant -/
theorem sim_and {P : A → Prop} {r : Res A} {m : Res B} (h : SameOutcome R r m) (hP : ∀ a, r = .ok a → P a) :
    SameOutcome (fun a b => R a b ∧ P a) r m := by
  cases r <;> cases m <;> simp only [SameOutcome] at h ⊢
  · exact ⟨h, hP _ rfl⟩
  · exact h
  · exact h

theorem sim_forFrom {R : Nat → A → B → Prop} {body : Nat → A → Res A} {body' : Nat → B → Res B} {n : Nat} :
    ∀ {lo : Nat}, (∀ i s t, lo ≤ i → i < lo + n → R i s t → SameOutcome (R (i + 1)) (body i s) (body' i t)) →
    ∀ {s t}, R lo s t → SameOutcome (R (lo + n)) (forFrom lo n body s) (forFrom lo n body' t) := by
  induction n with
  | zero => intro lo _ s t h; exact h
  | succ n ih =>
    intro lo hb s t h
    unfold forFrom
    refine sim_bind (hb lo s t (Nat.le_refl _) (by omega) h) (fun a b hab => ?_)
    have := ih (lo := lo + 1) (fun i s t h1 h2 => hb i s t (by omega) (by omega)) hab
    rwa [show lo + 1 + n = lo + (n + 1) from by omega] at this

theorem sim_forN {R : Nat → A → B → Prop} {body : Nat → A → Res A} {body' : Nat → B → Res B} {n : Nat}
    (hb : ∀ i s t, i < n → R i s t → SameOutcome (R (i + 1)) (body i s) (body' i t))
    {s : A} {t : B} (h : R 0 s t) : SameOutcome (R n) (forN n body s) (forN n body' t) := by
  have := sim_forFrom (R := R) (lo := 0) (n := n) (fun i s t _ hi => hb i s t (by omega)) h
  rwa [Nat.zero_add] at this

theorem sim_forRange {body : Nat → A → Res A} {body' : Nat → B → Res B} {lo hi : Nat}
    (hb : ∀ i s t, lo ≤ i → i < hi → R s t → SameOutcome R (body i s) (body' i t))
    {s : A} {t : B} (h : R s t) : SameOutcome R (forRange lo hi body s) (forRange lo hi body' t) := by
  unfold forRange
  exact sim_forFrom (R := fun _ => R) (fun i s t h1 h2 => hb i s t h1 (by omega)) h

theorem sim_forFromI {body : Nat → A → Res A} {body' : Int → B → Res B} {n : Nat} :
    ∀ {lo : Nat}, (∀ i s t, lo ≤ i → i < lo + n → R s t → SameOutcome R (body i s) (body' (i : Int) t)) →
    ∀ {s t}, R s t → SameOutcome R (forFrom lo n body s) (forFromI (lo : Int) n body' t) := by
  induction n with
  | zero => intro lo _ s t h; exact h
  | succ n ih =>
    intro lo hb s t h
    unfold forFrom forFromI
    refine sim_bind (hb lo s t (Nat.le_refl _) (by omega) h) (fun a b hab => ?_)
    have := ih (lo := lo + 1) (fun i s t h1 h2 => hb i s t (by omega) (by omega)) hab
    rwa [show ((lo + 1 : Nat) : Int) = (lo : Int) + 1 from by omega] at this

theorem sim_forI {body : Nat → A → Res A} {body' : Int → B → Res B} {lo hi : Nat}
    (hb : ∀ i s t, lo ≤ i → i < hi → R s t → SameOutcome R (body i s) (body' (i : Int) t))
    {s : A} {t : B} (h : R s t) : SameOutcome R (forRange lo hi body s) (forI (lo : Int) (hi : Int) body' t) := by
  unfold forRange forI
  rw [show ((hi : Int) - (lo : Int)).toNat = hi - lo from by omega]
  exact sim_forFromI (fun i s t h1 h2 => hb i s t h1 (by omega)) h

theorem sim_forList {body : Nat → A → Res A} {body' : Nat → B → Res B} {l : List Nat}
    (hb : ∀ i s t, R s t → SameOutcome R (body i s) (body' i t)) :
    ∀ {s : A} {t : B}, R s t → SameOutcome R (forList l body s) (forList l body' t) := by
  induction l with
  | nil => intro s t h; exact h
  | cons i l ih =>
    intro s t h
    exact sim_bind (hb i s t h) (fun a b hab => ih hab)

theorem sim_assert (c : Bool) (m : String) : SameOutcome (fun _ _ => True) (cassert c m) (cassert c m) :=
  sim_mono (sim_refl _) (fun _ _ _ => trivial)

theorem sim_ite {p q : Prop} [Decidable p] [Decidable q] (hpq : p ↔ q) {r r' : Res A} {m m' : Res B}
    (h : p → SameOutcome R r m) (h' : ¬p → SameOutcome R r' m') :
    SameOutcome R (if p then r else r') (if q then m else m') := by
  by_cases hp : p
  · rw [if_pos hp, if_pos (hpq.1 hp)]; exact h hp
  · rw [if_neg hp, if_neg (fun hq => hp (hpq.2 hq))]; exact h' hp

end sim

/-! ### Index buffers -/

/-- a buffer of small indices -/
def Idx (l : List Nat) (m : List Int) : Prop := m = l.map Int.ofNat ∧ ∀ x ∈ l, x ≤ 2147483647

theorem Idx.length {l : List Nat} {m : List Int} (h : Idx l m) : m.length = l.length := by
  rw [h.1, List.length_map]

theorem Idx.rd {l : List Nat} {m : List Int} (h : Idx l m) (i : Nat) :
    SameOutcome (fun (a : Nat) (b : Int) => b = a ∧ a ≤ 2147483647 ∧ i < l.length ∧ l[i]? = some a)
      (Verif.rd l i) (Verif.rd m i) := by
  rcases Nat.lt_or_ge i l.length with hi | hi
  · rw [rd_ok hi, rd_ok (by rw [h.length]; exact hi)]
    refine ⟨?_, h.2 _ (List.getElem_mem hi), hi, List.getElem?_eq_getElem hi⟩
    simp only [h.1, List.getElem_map]
    rfl
  · rw [rd_ub hi, rd_ub (by rw [h.length]; exact hi)]
    trivial

theorem Idx.wr {l : List Nat} {m : List Int} (h : Idx l m) (i : Nat) {a : Nat} (ha : a ≤ 2147483647) :
    SameOutcome (fun l' m' => Idx l' m' ∧ i < l.length ∧ l' = l.set i a) (Verif.wr l i a) (Verif.wr m i (a : Int)) := by
  unfold Verif.wr
  rw [h.length]
  split
  · rename_i hi
    refine ⟨⟨?_, ?_⟩, hi, rfl⟩
    · rw [h.1, List.map_set]
      rfl
    · intro x hx
      rcases List.mem_or_eq_of_mem_set hx with hx | hx
      · exact h.2 x hx
      · rw [hx]; exact ha
  · trivial

theorem rdI_nat {β : Type} (l : List β) (i : Nat) : rdI l (i : Int) = Verif.rd l i := by
  unfold rdI
  rw [if_neg (by omega), Int.toNat_natCast]

theorem wrI_nat {β : Type} (l : List β) (i : Nat) (b : β) : wrI l (i : Int) b = Verif.wr l i b := by
  unfold wrI
  rw [if_neg (by omega), Int.toNat_natCast]

theorem Idx.resize {l : List Nat} {m : List Int} (h : Idx l m) (n : Nat) :
    Idx (stdResize l n 0) (stdResize m n 0) := by
  refine ⟨?_, ?_⟩
  · rw [h.1]
    simp [stdResize, List.map_take]
  · intro x hx
    unfold stdResize at hx
    rcases List.mem_append.1 hx with hx | hx
    · exact h.2 x (List.mem_of_mem_take hx)
    · rw [List.eq_of_mem_replicate hx]; omega

theorem Idx.nil : Idx [] [] := ⟨rfl, by simp⟩

theorem Idx.vcopy {l k : List Nat} {m n : List Int} (h : Idx l m) (h' : Idx k n) (N : Nat) :
    SameOutcome Idx (Verif.vcopy N l k) (Verif.vcopy N m n) := by
  unfold Verif.vcopy
  rw [h.length, h'.length]
  split
  · split
    · refine ⟨?_, ?_⟩
      · rw [h.1, h'.1]
        simp [List.map_take, List.map_drop]
      · intro x hx
        rcases List.mem_append.1 hx with hx | hx
        · exact h.2 x (List.mem_of_mem_take hx)
        · exact h'.2 x (List.mem_of_mem_drop hx)
    · trivial
  · trivial

end Verif.Machine
