import Verif.Spec.Entries
import Mathlib.Data.List.Pairwise

namespace Verif.Spec

variable {α : Type}

theorem lastAt_nil [Zero α] (i j : Nat) : lastAt ([] : List (Entry α)) i j = 0 := rfl

theorem lastAt_append_singleton [Zero α] (L : List (Entry α)) (e : Entry α) (i j : Nat) :
    lastAt (L ++ [e]) i j = if e.1 = i ∧ e.2.1 = j then e.2.2 else lastAt L i j := by
  unfold lastAt
  simp only [List.reverse_append, List.reverse_cons, List.reverse_nil, List.nil_append,
    List.singleton_append, List.find?_cons]
  by_cases h : e.1 = i ∧ e.2.1 = j
  · simp [h.1, h.2]
  · have : (e.1 == i && e.2.1 == j) = false := by
      rw [Bool.eq_false_iff]; intro hh; simp at hh; exact h hh
    simp [this, h]

/-- nothing stored at a position: 0 -/
theorem lastAt_of_not_mem [Zero α] {L : List (Entry α)} {i j : Nat}
    (h : ∀ e ∈ L, ¬ (e.1 = i ∧ e.2.1 = j)) : lastAt L i j = 0 := by
  unfold lastAt
  have : L.reverse.find? (fun e => e.1 == i && e.2.1 == j) = none := by
    rw [List.find?_eq_none]
    intro x hx
    simpa using h x (by simpa using hx)
  rw [this]

/-- something stored at a position: the value of a stored entry -/
theorem lastAt_mem [Zero α] {L : List (Entry α)} {i j : Nat}
    (h : ∃ e ∈ L, e.1 = i ∧ e.2.1 = j) : (i, j, lastAt L i j) ∈ L := by
  unfold lastAt
  cases hf : L.reverse.find? (fun x => x.1 == i && x.2.1 == j) with
  | none =>
    rw [List.find?_eq_none] at hf
    obtain ⟨e, he, h1, h2⟩ := h
    exact absurd (hf e (by simpa using he)) (by simp [h1, h2])
  | some x =>
    have hx := List.find?_some hf
    have hm := List.mem_of_find?_eq_some hf
    simp only [Bool.and_eq_true, beq_iff_eq] at hx
    obtain ⟨x1, x2, x3⟩ := x
    simp only at hx
    obtain ⟨rfl, rfl⟩ := hx
    simpa using hm

theorem DistinctPos.eq {L : List (Entry α)} (hd : DistinctPos L) {x y : Entry α}
    (hx : x ∈ L) (hy : y ∈ L) (h1 : x.1 = y.1) (h2 : x.2.1 = y.2.1) : x = y := by
  by_contra hne
  have : Std.Symm (fun a b : Entry α => ¬ (a.1 = b.1 ∧ a.2.1 = b.2.1)) :=
    ⟨fun a b h => by rintro ⟨p, q⟩; exact h ⟨p.symm, q.symm⟩⟩
  exact List.Pairwise.forall hd hx hy hne ⟨h1, h2⟩

/-- with at most one entry at `(i,j)`, `lastAt` is that entry's value -/
theorem lastAt_of_mem [Zero α] {L : List (Entry α)} (hd : DistinctPos L) {e : Entry α}
    (he : e ∈ L) : lastAt L e.1 e.2.1 = e.2.2 := by
  have := lastAt_mem (L := L) ⟨e, he, rfl, rfl⟩
  have h := hd.eq this he rfl rfl
  exact congrArg (·.2.2) h

theorem DistinctPos.perm {L L' : List (Entry α)} (hp : L.Perm L') (hd : DistinctPos L) :
    DistinctPos L' :=
  (List.Perm.pairwise_iff
    (fun {a b} h => by rintro ⟨p, q⟩; exact h ⟨p.symm, q.symm⟩) hp).1 hd

/-- if `(i,j)` is stored at most once, the value does not depend on the stored order -/
theorem lastAt_perm_of_unique [Zero α] {L L' : List (Entry α)} (hp : L.Perm L') {i j : Nat}
    (hu : ∀ x ∈ L, ∀ y ∈ L, x.1 = i → x.2.1 = j → y.1 = i → y.2.1 = j → x = y) :
    lastAt L' i j = lastAt L i j := by
  by_cases h : ∃ e ∈ L, e.1 = i ∧ e.2.1 = j
  · have h' : ∃ e ∈ L', e.1 = i ∧ e.2.1 = j := by
      obtain ⟨e, he, hh⟩ := h; exact ⟨e, hp.mem_iff.1 he, hh⟩
    have a := lastAt_mem h
    have b := hp.mem_iff.2 (lastAt_mem h')
    exact congrArg (·.2.2) (hu _ b _ a rfl rfl rfl rfl)
  · have h1 : ∀ e ∈ L, ¬ (e.1 = i ∧ e.2.1 = j) := fun e he hh => h ⟨e, he, hh⟩
    rw [lastAt_of_not_mem h1, lastAt_of_not_mem (fun e he => h1 e (hp.mem_iff.2 he))]

theorem StrictLex.distinct {L : List (Entry α)} (h : StrictLex L) : DistinctPos L :=
  List.Pairwise.imp (fun {a b} h => by omega) h

theorem StrictLex.sorted {L : List (Entry α)} (h : StrictLex L) : SortedLex L :=
  List.Pairwise.imp (fun {a b} h => by omega) h

theorem SortedLex.rows {L : List (Entry α)} (h : SortedLex L) : SortedRows L :=
  List.Pairwise.imp (fun {a b} h => by omega) h

end Verif.Spec
