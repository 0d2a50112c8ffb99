import Verif.Core.Res
import Mathlib.Data.List.Induction

/-! Keeping the last element of each run of equal keys: the list-level effect of the duplicate-removal
loops, for an arbitrary key. -/

namespace Verif.KL

variable {ρ κ : Type} [DecidableEq κ] (key : ρ → κ)

def klStep (acc : List ρ) (e : ρ) : List ρ :=
  match acc.getLast? with
  | some l => if key l = key e then acc.dropLast ++ [e] else acc ++ [e]
  | none => [e]

def keepLast (L : List ρ) : List ρ := L.foldl (klStep key) []

theorem keepLast_append (L : List ρ) (e : ρ) :
    keepLast key (L ++ [e]) = klStep key (keepLast key L) e := by simp [keepLast]

theorem getLast?_klStep (acc : List ρ) (e : ρ) : (klStep key acc e).getLast? = some e := by
  unfold klStep
  split
  · split <;> simp
  · rfl

theorem keepLast_getLast? (L : List ρ) : (keepLast key L).getLast? = L.getLast? := by
  induction L using List.reverseRecOn with
  | nil => rfl
  | append_singleton L e _ => rw [keepLast_append, getLast?_klStep]; simp

variable {key}

theorem klStep_cases {acc : List ρ} (e : ρ) :
    (∃ ys l, acc = ys ++ [l] ∧ key l = key e ∧ klStep key acc e = ys ++ [e]) ∨
    ((∀ l, acc.getLast? = some l → key l ≠ key e) ∧ klStep key acc e = acc ++ [e]) := by
  unfold klStep
  cases h : acc.getLast? with
  | none =>
    right
    refine ⟨by simp, ?_⟩
    rw [List.getLast?_eq_none_iff] at h
    simp [h]
  | some l =>
    obtain ⟨ys, rfl⟩ := List.getLast?_eq_some_iff.1 h
    by_cases hk : key l = key e
    · left
      refine ⟨ys, l, rfl, hk, ?_⟩
      simp [hk]
    · right
      refine ⟨?_, by simp [hk]⟩
      intro l' hl'
      cases hl'
      exact hk

theorem keepLast_mem {L : List ρ} : ∀ {x}, x ∈ keepLast key L → x ∈ L := by
  induction L using List.reverseRecOn with
  | nil => intro x h; exact h
  | append_singleton L e ih =>
    intro x h
    rw [keepLast_append] at h
    rcases klStep_cases (key := key) (acc := keepLast key L) e with ⟨ys, l, h1, _, h3⟩ | ⟨_, h3⟩
    · rw [h3, List.mem_append, List.mem_singleton] at h
      rw [List.mem_append, List.mem_singleton]
      rcases h with h | h
      · exact Or.inl (ih (by rw [h1]; simp [h]))
      · exact Or.inr h
    · rw [h3, List.mem_append, List.mem_singleton] at h
      rw [List.mem_append, List.mem_singleton]
      rcases h with h | h
      · exact Or.inl (ih h)
      · exact Or.inr h

theorem keepLast_pos {L : List ρ} : ∀ {x}, x ∈ L → ∃ y ∈ keepLast key L, key y = key x := by
  induction L using List.reverseRecOn with
  | nil => intro x h; simp at h
  | append_singleton L e ih =>
    intro x h
    rw [keepLast_append]
    rw [List.mem_append, List.mem_singleton] at h
    rcases klStep_cases (key := key) (acc := keepLast key L) e with ⟨ys, l, h1, h2, h3⟩ | ⟨_, h3⟩
    · rw [h3]
      rcases h with h | rfl
      · obtain ⟨y, hy, hyx⟩ := ih h
        rw [h1, List.mem_append, List.mem_singleton] at hy
        rcases hy with hy | rfl
        · exact ⟨y, by simp [hy], hyx⟩
        · exact ⟨e, by simp, by rw [← h2, hyx]⟩
      · exact ⟨x, by simp, rfl⟩
    · rw [h3]
      rcases h with h | rfl
      · obtain ⟨y, hy, hyx⟩ := ih h
        exact ⟨y, by simp [hy], hyx⟩
      · exact ⟨x, by simp, rfl⟩

theorem keepLast_strict (f : ρ → Nat) {L : List ρ} (h : L.Pairwise fun a b => f a ≤ f b)
    (hinj : ∀ a ∈ L, ∀ b ∈ L, f a = f b → key a = key b) :
    (keepLast key L).Pairwise fun a b => f a < f b := by
  induction L using List.reverseRecOn with
  | nil => exact List.Pairwise.nil
  | append_singleton L e ih =>
    rw [List.pairwise_append] at h
    obtain ⟨hL, _, hle⟩ := h
    have hle : ∀ a ∈ L, f a ≤ f e := fun a ha => hle a ha e (by simp)
    have ih := ih hL (fun a ha b hb => hinj a (by simp [ha]) b (by simp [hb]))
    rw [keepLast_append]
    rcases klStep_cases (key := key) (acc := keepLast key L) e with ⟨ys, l, h1, h2, h3⟩ | ⟨h2, h3⟩
    · rw [h1, List.pairwise_append] at ih
      rw [h3, List.pairwise_append]
      refine ⟨ih.1, List.pairwise_singleton _ _, ?_⟩
      intro x hx y hy
      rw [List.mem_singleton] at hy
      subst hy
      have a1 := ih.2.2 x hx l (by simp)
      have a2 := hle l (keepLast_mem (key := key) (by rw [h1]; simp))
      omega
    · rw [h3, List.pairwise_append]
      refine ⟨ih, List.pairwise_singleton _ _, ?_⟩
      intro x hx y hy
      rw [List.mem_singleton] at hy
      subst hy
      have a1 := hle x (keepLast_mem hx)
      have hne : keepLast key L ≠ [] := List.ne_nil_of_mem hx
      have hlast := List.getLast?_eq_some_getLast hne
      have hkl := h2 _ hlast
      have hmem := keepLast_mem (List.getLast_mem hne)
      have a2 := hle _ hmem
      have a3 : f x ≤ f ((keepLast key L).getLast hne) := by
        obtain ⟨zs, hz⟩ := List.getLast?_eq_some_iff.1 hlast
        rw [hz] at hx ih
        rw [List.pairwise_append] at ih
        rw [List.mem_append, List.mem_singleton] at hx
        rcases hx with hx | hx
        · exact Nat.le_of_lt (ih.2.2 x hx _ (by simp))
        · rw [← hx]; exact Nat.le_refl _
      have : f ((keepLast key L).getLast hne) ≠ f y := fun he =>
        hkl (hinj _ (by simp [hmem]) y (by simp) he)
      omega

theorem keepLast_distinct {L : List ρ} (h : L.Pairwise fun a b => key a ≠ key b) :
    keepLast key L = L := by
  induction L using List.reverseRecOn with
  | nil => rfl
  | append_singleton L e ih =>
    rw [List.pairwise_append] at h
    obtain ⟨hL, _, hle⟩ := h
    rw [keepLast_append, ih hL]
    rcases klStep_cases (key := key) (acc := L) e with ⟨ys, l, h1, h2, _⟩ | ⟨_, h3⟩
    · exact absurd h2 (hle l (by rw [h1]; simp) e (by simp))
    · exact h3

/-- the in-place loop, for any encoding of the state -/
theorem mergeLoop {σ : Type} (enc : Nat → List ρ → σ) (step : Nat → σ → Res σ)
    (hstep : ∀ (Z : List ρ) k i, k < i → (hi : i < Z.length) → (hk : k < Z.length) →
      step i (enc k Z) = if key Z[k] = key Z[i] then .ok (enc k (Z.set k Z[i]))
        else .ok (enc (k + 1) (Z.set (k + 1) Z[i])))
    {Z : List ρ} {nnz : Nat} (h : nnz ≤ Z.length) (h1 : 1 ≤ nnz) :
    ∃ (k : Nat) (Z' : List ρ), forRange 1 nnz step (enc 0 Z) = .ok (enc k Z') ∧
      Z'.length = Z.length ∧ k + 1 ≤ nnz ∧ Z'.take (k + 1) = keepLast key (Z.take nnz) := by
  have := forRange_sat (lo := 1) (hi := nnz) (body := step) (s := enc 0 Z)
    (fun i s => ∃ k, ∃ Z' : List ρ, s = enc k Z' ∧
      Z'.length = Z.length ∧ k + 1 ≤ i ∧ Z'.take (k + 1) = keepLast key (Z.take i) ∧
      (∀ j, i ≤ j → Z'[j]? = Z[j]?)) h1
    ⟨0, Z, rfl, rfl, by simp, by
      have hz : 0 < Z.length := by omega
      rw [List.take_succ_eq_append_getElem hz]
      rfl, fun _ _ => rfl⟩
    (by
      rintro i s hi1 hi2 ⟨k, Z', rfl, hlen, hk, ht, hf⟩
      have hiZ : i < Z'.length := by omega
      have hkZ : k < Z'.length := by omega
      have hget : Z[i]'(by omega) = Z'[i] := by
        have := hf i (Nat.le_refl _)
        rw [List.getElem?_eq_getElem hiZ, List.getElem?_eq_getElem (by omega)] at this
        exact (Option.some.inj this).symm
      have hkl : keepLast key (Z.take (i + 1)) = klStep key (Z'.take (k + 1)) Z'[i] := by
        rw [List.take_succ_eq_append_getElem (by omega), keepLast_append, ← ht, hget]
      have hlast : (Z'.take (k + 1)).getLast? = some Z'[k] := by
        rw [List.take_succ_eq_append_getElem hkZ]; exact List.getLast?_concat
      rw [hstep Z' k i (by omega) hiZ hkZ]
      by_cases hp : key Z'[k] = key Z'[i]
      · rw [if_pos hp, Res.sat_ok]
        refine ⟨k, Z'.set k Z'[i], rfl, by simpa using hlen, by omega, ?_, ?_⟩
        · rw [hkl]; unfold klStep; rw [hlast]; simp only [hp, if_true]
          rw [List.take_succ_eq_append_getElem (by simpa using hkZ),
            List.take_succ_eq_append_getElem hkZ, List.dropLast_concat]
          rw [List.take_set_of_le (by omega)]; simp
        · intro j hj
          rw [List.getElem?_set_ne (by omega)]; exact hf j (by omega)
      · rw [if_neg hp, Res.sat_ok]
        refine ⟨k + 1, Z'.set (k + 1) Z'[i], rfl, by simpa using hlen, by omega, ?_, ?_⟩
        · rw [hkl]; unfold klStep; rw [hlast]; simp only [hp, if_false]
          rw [List.take_succ_eq_append_getElem (i := k + 1) (by simp; omega),
            List.take_set_of_le (by omega)]
          simp
        · intro j hj
          rw [List.getElem?_set_ne (by omega)]; exact hf j (by omega))
  obtain ⟨s, he, k, Z', rfl, hlen, hk, ht, _⟩ := this
  exact ⟨k, Z', he, hlen, hk, ht⟩

end Verif.KL
