import Verif.Spec.ViewSpec
import Verif.Props.Shared

/-! Loops that store into consecutive cells. -/

namespace Verif.Shared

variable {α : Type}

theorem rawRead_ok {s : Sys α} {a p : Nat} {x : α} (ho : s.owned a = true) (h : s.cell a p = some x) :
    s.rawRead a p = .ok x := by
  unfold Sys.cell at h
  obtain ⟨b, hb, hp⟩ := Option.bind_eq_some_iff.mp h
  unfold Sys.rawRead
  rw [if_pos ho, rd_of_getElem? hb, Res.ok_bind, rd_of_getElem? hp]

theorem rawRead_ub {s : Sys α} {a p : Nat} (h : s.cell a p = none) : ∃ m, s.rawRead a p = .ub m := by
  unfold Sys.rawRead
  split
  · unfold Sys.cell at h
    cases hb : s.bufs[a]? with
    | none =>
      refine ⟨_, by unfold rd; rw [hb]; rfl⟩
    | some b =>
      rw [hb] at h
      have h : b[p]? = none := h
      rw [rd_of_getElem? hb, Res.ok_bind]
      exact ⟨_, by unfold rd; rw [h]⟩
  · exact ⟨_, rfl⟩

theorem rawWrite_ok {s : Sys α} {a p : Nat} {v : α} (ho : s.owned a = true)
    (h : (s.cell a p).isSome = true) :
    ∃ s', s.rawWrite a p v = .ok s' ∧ s'.objs = s.objs ∧
      ∀ a' p', s'.cell a' p' = if a' = a ∧ p' = p then some v else s.cell a' p' := by
  obtain ⟨x, hx⟩ := Option.isSome_iff_exists.mp h
  unfold Sys.cell at hx
  obtain ⟨b, hb, hp⟩ := Option.bind_eq_some_iff.mp hx
  have hpl : p < b.length := by
    by_contra hc
    rw [List.getElem?_eq_none (by omega)] at hp; cases hp
  have hal : a < s.bufs.length := by
    by_contra hc
    rw [List.getElem?_eq_none (by omega)] at hb; cases hb
  refine ⟨{ s with bufs := s.bufs.set a (b.set p v) }, ?_, rfl, ?_⟩
  · unfold Sys.rawWrite
    rw [if_pos ho, rd_of_getElem? hb, Res.ok_bind, wr_ok hpl, Res.ok_bind, wr_ok hal, Res.ok_bind]
  · intro a' p'
    unfold Sys.cell
    by_cases h1 : a' = a
    · subst h1
      simp only [List.getElem?_set_self hal, Option.bind_some, hb, true_and]
      by_cases h2 : p' = p
      · subst h2; simp [List.getElem?_set_self hpl]
      · rw [if_neg h2, List.getElem?_set_ne (Ne.symm h2)]
    · rw [if_neg (fun h => h1 h.1)]
      simp only [List.getElem?_set_ne (Ne.symm h1)]

theorem owned_objs {s t : Sys α} (h : t.objs = s.objs) (a : Nat) : t.owned a = s.owned a := by
  unfold Sys.owned; rw [h]

/-- the state `t` differs from `s` only in that some of the cells `o + i` of buffer `a` may already
hold `f i` -/
def Between (s t : Sys α) (a o : Nat) (f : Nat → α) (order : List Nat) : Prop :=
  t.objs = s.objs ∧ ∀ a' p, t.cell a' p = s.cell a' p ∨
    (a' = a ∧ o ≤ p ∧ p - o ∈ order ∧ t.cell a' p = some (f (p - o)))

theorem forList_store {s : Sys α} {a o : Nat} (f : Nat → α) (all : List Nat)
    (ho : s.owned a = true) (hin : ∀ i ∈ all, (s.cell a (o + i)).isSome = true)
    (body : Nat → Sys α → Res (Sys α))
    (hbody : ∀ i ∈ all, ∀ t, Between s t a o f all → body i t = t.rawWrite a (o + i) (f i)) :
    ∀ (todo : List Nat) (t : Sys α), (∀ i ∈ todo, i ∈ all) → Between s t a o f all →
      ∃ s', forList todo body t = .ok s' ∧ s'.objs = s.objs ∧
        ∀ a' p, s'.cell a' p = if a' = a ∧ o ≤ p ∧ p - o ∈ todo then some (f (p - o))
          else t.cell a' p
  | [], t, _, hb => ⟨t, rfl, hb.1, by simp⟩
  | i :: todo, t, hsub, hb => by
    have hi := hsub i (by simp)
    have hsome : (t.cell a (o + i)).isSome = true := by
      rcases hb.2 a (o + i) with h | ⟨_, _, _, h⟩
      · rw [h]; exact hin i hi
      · rw [h]; rfl
    obtain ⟨t1, ht1, hobjs, hcell⟩ := rawWrite_ok (v := f i) ((owned_objs hb.1 a).trans ho) hsome
    have hb1 : Between s t1 a o f all := by
      refine ⟨hobjs.trans hb.1, ?_⟩
      intro a' p
      rw [hcell]
      by_cases h : a' = a ∧ p = o + i
      · right
        rw [if_pos h, h.2]
        refine ⟨h.1, by omega, ?_, ?_⟩
        · rw [show o + i - o = i by omega]; exact hi
        · rw [show o + i - o = i by omega]
      · rw [if_neg h]; exact hb.2 a' p
    obtain ⟨s', h1, h2, h3⟩ := forList_store f all ho hin body hbody todo t1
      (fun j hj => hsub j (by simp [hj])) hb1
    refine ⟨s', ?_, h2, ?_⟩
    · rw [forList, hbody i hi t hb, ht1, Res.ok_bind]; exact h1
    · intro a' p
      rw [h3, hcell]
      by_cases hA : a' = a
      · subst hA
        by_cases hop : o ≤ p
        · by_cases hm : p - o ∈ todo
          · rw [if_pos ⟨rfl, hop, hm⟩, if_pos ⟨rfl, hop, by simp [hm]⟩]
          · rw [if_neg (fun h => hm h.2.2)]
            by_cases hp : p = o + i
            · subst hp
              rw [if_pos ⟨rfl, rfl⟩, if_pos ⟨rfl, hop, by simp⟩]
              rw [show o + i - o = i by omega]
            · rw [if_neg (fun h => hp h.2), if_neg]
              intro h
              rcases List.mem_cons.mp h.2.2 with h | h
              · omega
              · exact hm h
        · rw [if_neg (fun h => hop h.2.1), if_neg (fun h => hop (by omega)), if_neg (fun h => hop h.2.1)]
      · rw [if_neg (fun h => hA h.1), if_neg (fun h => hA h.1), if_neg (fun h => hA h.1)]

theorem Between.refl (s : Sys α) (a o : Nat) (f : Nat → α) (order : List Nat) : Between s s a o f order :=
  ⟨rfl, fun _ _ => Or.inl rfl⟩

/-- the whole loop -/
theorem forList_store_all {s : Sys α} {a o n : Nat} (f : Nat → α) {order : List Nat} (hord : Order order n)
    (ho : s.owned a = true) (hin : ∀ i, i < n → (s.cell a (o + i)).isSome = true)
    (body : Nat → Sys α → Res (Sys α))
    (hbody : ∀ i, i < n → ∀ t, Between s t a o f order → body i t = t.rawWrite a (o + i) (f i)) :
    ∃ s', forList order body s = .ok s' ∧ SameElsewhere s s' a o n ∧
      ∀ k, k < n → s'.cell a (o + k) = some (f k) := by
  obtain ⟨s', h1, h2, h3⟩ := forList_store f order ho (fun i hi => hin i (hord.mem.mp hi)) body
    (fun i hi => hbody i (hord.mem.mp hi)) order s (fun _ h => h) (Between.refl ..)
  refine ⟨s', h1, ⟨h2, ?_⟩, ?_⟩
  · intro a' p hn
    rw [h3, if_neg]
    rintro ⟨ha, hop, hm⟩
    exact hn ⟨ha, hop, by have := hord.mem.mp hm; omega⟩
  · intro k hk
    rw [h3, if_pos ⟨rfl, by omega, by rw [show o + k - o = k by omega]; exact hord.mem.mpr hk⟩]
    rw [show o + k - o = k by omega]

end Verif.Shared
