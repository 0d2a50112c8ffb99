import Verif.Spec.DeviceSpec
import Mathlib.Data.List.Basic
import Mathlib.Tactic.Common

/-! The device data environment as a function. -/

namespace Verif.Dev

open Verif.Spec.Device

variable {α : Type}

/-- the sections `P` are exactly the mapped ones, each in its own region with count 1 -/
structure Mapped (P : Nat × Nat → Prop) (R : List (Region α)) : Prop where
  only : ∀ r ∈ R, P (r.base, r.len) ∧ 0 < r.len ∧ r.ref = 1
  all : ∀ p, P p → 0 < p.2 → ∃ r ∈ R, r.base = p.1 ∧ r.len = p.2
  apart : R.Pairwise fun r q => r.base + r.len ≤ q.base ∨ q.base + q.len ≤ r.base

theorem Apart.symm {p q : Nat × Nat} (h : Apart p q) : Apart q p := by
  unfold Apart at *; omega

/-- distinct sections of `P` have nothing in common -/
def Sep (P : Nat × Nat → Prop) : Prop := ∀ p q, P p → P q → p = q ∨ Apart p q

theorem has_iff {r : Region α} {b l : Nat} : r.has b l = true ↔ r.base ≤ b ∧ b + l ≤ r.base + r.len := by
  simp [Region.has]

theorem Mapped.has_eq {P : Nat × Nat → Prop} {R : List (Region α)} (h : Mapped P R) (hs : Sep P) {b l : Nat}
    (hp : P (b, l)) (hl : 0 < l) {r : Region α} (hr : r ∈ R) : r.has b l = true ↔ r.base = b ∧ r.len = l := by
  rw [has_iff]
  constructor
  · intro h1
    obtain ⟨h2, h3, -⟩ := h.only r hr
    rcases hs _ _ h2 hp with e | e
    · simp only [Prod.mk.injEq] at e; exact e
    · unfold Apart at e; dsimp only at e; omega
  · rintro ⟨rfl, rfl⟩; omega

theorem Mapped.find {P : Nat × Nat → Prop} {R : List (Region α)} (h : Mapped P R) (hs : Sep P) {b l : Nat}
    (hp : P (b, l)) (hl : 0 < l) : ∃ r ∈ R, R.find? (·.has b l) = some r ∧ r.base = b ∧ r.len = l ∧ r.ref = 1 := by
  obtain ⟨r, hr, e1, e2⟩ := h.all _ hp hl
  cases hf : R.find? (·.has b l) with
  | none =>
    rw [List.find?_eq_none] at hf
    exact absurd ((h.has_eq hs hp hl hr).mpr ⟨e1, e2⟩) (hf r hr)
  | some q =>
    have hq := List.mem_of_find?_eq_some hf
    have hb := List.find?_some hf
    obtain ⟨e3, e4⟩ := (h.has_eq hs hp hl hq).mp hb
    exact ⟨q, hq, rfl, e3, e4, (h.only q hq).2.2⟩

/-- the value seen on the device inside a region -/
theorem devMem_in {s : St α} (hR : s.regions.Pairwise fun r q => r.base + r.len ≤ q.base ∨ q.base + q.len ≤ r.base)
    {r : Region α} (hr : r ∈ s.regions) {a : Nat} (h1 : r.base ≤ a) (h2 : a < r.base + r.len) :
    devMem s a = r.data a := by
  unfold devMem
  generalize s.regions = R at hR hr
  have : R.find? (·.has a 1) = some r := by
    induction R with
    | nil => cases hr
    | cons q R ih =>
      rw [List.pairwise_cons] at hR
      rcases List.mem_cons.mp hr with rfl | hm
      · have : r.has a 1 = true := by rw [has_iff]; omega
        rw [List.find?_cons, this]
      · have hd := hR.1 r hm
        have : q.has a 1 = false := by
          cases hq : q.has a 1 with
          | false => rfl
          | true => rw [has_iff] at hq; omega
        rw [List.find?_cons, this]
        exact ih hR.2 hm
  rw [this]

theorem devMem_out {s : St α} {a : Nat} (h : ∀ r ∈ s.regions, ¬ (r.base ≤ a ∧ a < r.base + r.len)) :
    devMem s a = s.host a := by
  unfold devMem
  have : s.regions.find? (·.has a 1) = none := by
    rw [List.find?_eq_none]
    intro r hr hc
    rw [has_iff] at hc
    exact h r hr (by omega)
  rw [this]

theorem meets_iff {r : Region α} {b l : Nat} : r.meets b l = true ↔ r.base < b + l ∧ b < r.base + r.len := by
  simp [Region.meets]

theorem enter_spec {P : Nat × Nat → Prop} {s : St α} (h : Mapped P s.regions) {b l : Nat}
    (hn : ∀ p, P p → Apart p (b, l)) : ∃ s', enter s b l = .ok s' ∧
      Mapped (fun p => P p ∨ p = (b, l)) s'.regions ∧ s'.host = s.host ∧ s'.flags = s.flags ∧
      devMem s' = over b l s.host (devMem s) := by
  unfold enter
  by_cases hl : l = 0
  · subst hl
    rw [if_pos rfl]
    refine ⟨s, rfl, ⟨fun r hr => ?_, fun p hp h0 => ?_, h.apart⟩, rfl, rfl, ?_⟩
    · exact ⟨Or.inl (h.only r hr).1, (h.only r hr).2⟩
    · rcases hp with hp | rfl
      · exact h.all p hp h0
      · exact absurd h0 (by simp)
    · funext a; unfold over; rw [if_neg (by omega)]
  · rw [if_neg hl]
    have hno : ∀ r ∈ s.regions, r.base + r.len ≤ b ∨ b + l ≤ r.base := by
      intro r hr
      have := hn _ (h.only r hr).1
      have h0 := (h.only r hr).2.1
      unfold Apart at this; dsimp only at this
      omega
    have hm : s.regions.any (·.meets b l) = false := by
      rw [List.any_eq_false]
      intro r hr hc
      rw [meets_iff] at hc
      have := hno r hr
      omega
    have hh : s.regions.any (·.has b l) = false := by
      rw [List.any_eq_false]
      intro r hr hc
      rw [has_iff] at hc
      have := hno r hr
      have h0 := (h.only r hr).2.1
      omega
    rw [hh, hm]
    simp only [Bool.false_eq_true, if_false]
    have hap : (({ base := b, len := l, ref := 1, data := s.host } : Region α) :: s.regions).Pairwise
        fun r q => r.base + r.len ≤ q.base ∨ q.base + q.len ≤ r.base := by
      rw [List.pairwise_cons]
      refine ⟨fun q hq => ?_, h.apart⟩
      have := hno q hq
      dsimp only; omega
    refine ⟨_, rfl, ⟨?_, ?_, hap⟩, rfl, rfl, ?_⟩
    · intro r hr
      rcases List.mem_cons.mp hr with rfl | hr
      · exact ⟨Or.inr rfl, by dsimp only; omega, rfl⟩
      · exact ⟨Or.inl (h.only r hr).1, (h.only r hr).2⟩
    · intro p hp h0
      rcases hp with hp | rfl
      · obtain ⟨r, hr, e⟩ := h.all p hp h0
        exact ⟨r, List.mem_cons_of_mem _ hr, e⟩
      · exact ⟨_, List.mem_cons_self, rfl, rfl⟩
    · funext a
      unfold over devMem
      simp only [List.find?_cons]
      by_cases ha : b ≤ a ∧ a < b + l
      · have : Region.has ({ base := b, len := l, ref := 1, data := s.host } : Region α) a 1 = true := by
          rw [has_iff]; dsimp only; omega
        rw [this, if_pos ha]
      · have : Region.has ({ base := b, len := l, ref := 1, data := s.host } : Region α) a 1 = false := by
          cases hq : Region.has ({ base := b, len := l, ref := 1, data := s.host } : Region α) a 1 with
          | false => rfl
          | true => rw [has_iff] at hq; dsimp only at hq; omega
        rw [this, if_neg ha]

theorem devMem_map {s : St α} (f : Region α → Region α) (hb : ∀ r, (f r).base = r.base ∧ (f r).len = r.len)
    (a : Nat) (fl : Nat → Bool) : devMem { host := s.host, regions := s.regions.map f, flags := fl } a =
      match s.regions.find? (·.has a 1) with
      | none => s.host a
      | some r => (f r).data a := by
  unfold devMem
  simp only [List.find?_map]
  have : ((fun r : Region α => r.has a 1) ∘ f) = fun r => r.has a 1 := by
    funext r
    simp only [Function.comp, Region.has, (hb r).1, (hb r).2]
  rw [this]
  cases s.regions.find? (fun r => r.has a 1) <;> rfl

theorem Mapped.map {P : Nat × Nat → Prop} {R : List (Region α)} (h : Mapped P R) (f : Region α → Region α)
    (hb : ∀ r, (f r).base = r.base ∧ (f r).len = r.len ∧ (f r).ref = r.ref) : Mapped P (R.map f) := by
  refine ⟨?_, ?_, ?_⟩
  · intro r hr
    obtain ⟨q, hq, rfl⟩ := List.mem_map.mp hr
    rw [(hb q).1, (hb q).2.1, (hb q).2.2]
    exact h.only q hq
  · intro p hp h0
    obtain ⟨r, hr, e⟩ := h.all p hp h0
    exact ⟨f r, List.mem_map_of_mem hr, by rw [(hb r).1, (hb r).2.1]; exact e⟩
  · rw [List.pairwise_map]
    refine h.apart.imp fun {r q} h => ?_
    rw [(hb r).1, (hb r).2.1, (hb q).1, (hb q).2.1]
    exact h

theorem updateTo_spec {P : Nat × Nat → Prop} {s : St α} (h : Mapped P s.regions) (hs : Sep P) {b l : Nat}
    (hp : P (b, l)) : Mapped P (updateTo s b l).regions ∧ (updateTo s b l).host = s.host ∧
      (updateTo s b l).flags = s.flags ∧ devMem (updateTo s b l) = over b l s.host (devMem s) := by
  have hb : ∀ r : Region α,
      (if r.has b l then ({ r with data := over b l s.host r.data } : Region α) else r).base = r.base ∧
      (if r.has b l then ({ r with data := over b l s.host r.data } : Region α) else r).len = r.len := by
    intro r; split <;> exact ⟨rfl, rfl⟩
  refine ⟨h.map _ fun r => ?_, rfl, rfl, ?_⟩
  · split <;> exact ⟨rfl, rfl, rfl⟩
  · funext a
    unfold updateTo
    rw [devMem_map _ hb]
    unfold devMem
    by_cases ha : b ≤ a ∧ a < b + l
    · have hl : 0 < l := by omega
      obtain ⟨r, hr, hf, e1, e2, e3⟩ := h.find hs hp hl
      have hfa : s.regions.find? (·.has a 1) = some r ∨ ∃ q, s.regions.find? (·.has a 1) = some q ∧ q.has b l = true := by
        cases hq : s.regions.find? (·.has a 1) with
        | none =>
          rw [List.find?_eq_none] at hq
          exact absurd (by rw [has_iff]; omega) (hq r hr)
        | some q =>
          right
          refine ⟨q, rfl, ?_⟩
          have hqm := List.mem_of_find?_eq_some hq
          have hqh := List.find?_some hq
          rw [has_iff] at hqh
          rcases hs _ _ (h.only q hqm).1 hp with e | e
          · simp only [Prod.mk.injEq] at e
            rw [has_iff]; omega
          · unfold Apart at e; dsimp only at e; omega
      have hfb : ∃ q, s.regions.find? (·.has a 1) = some q ∧ q.has b l = true := by
        rcases hfa with e | e
        · exact ⟨r, e, by rw [has_iff]; omega⟩
        · exact e
      obtain ⟨q, hq, hqb⟩ := hfb
      rw [hq]
      dsimp only
      rw [if_pos hqb]
      show over b l s.host q.data a = _
      unfold over
      rw [if_pos ha, if_pos ha]
    · cases hq : s.regions.find? (·.has a 1) with
      | none => simp [over, ha, hq]
      | some q =>
        simp only [over, if_neg ha, hq]
        split <;> simp [over, ha]

theorem updateFrom_spec {P : Nat × Nat → Prop} {s : St α} (h : Mapped P s.regions) (hs : Sep P) {b l : Nat}
    (hp : P (b, l)) : Mapped P (updateFrom s b l).regions ∧ (updateFrom s b l).flags = s.flags ∧
      (updateFrom s b l).host = over b l (devMem s) s.host ∧
      ∀ a, (∃ p, P p ∧ p.1 ≤ a ∧ a < p.1 + p.2) → devMem (updateFrom s b l) a = devMem s a := by
  have hin : ∀ s' : St α, s'.regions = s.regions → ∀ a, (∃ p, P p ∧ p.1 ≤ a ∧ a < p.1 + p.2) →
      devMem s' a = devMem s a := by
    rintro s' e a ⟨p, hp, h1, h2⟩
    obtain ⟨r, hr, e1, e2⟩ := h.all p hp (by omega)
    rw [devMem_in (s := s) h.apart hr (by omega) (by omega),
      devMem_in (s := s') (by rw [e]; exact h.apart) (by rw [e]; exact hr) (by omega) (by omega)]
  unfold updateFrom
  by_cases hl : l = 0
  · subst hl
    have hov : ∀ m m' : Nat → α, over b 0 m m' = m' := fun m m' => by
      funext a; unfold over; rw [if_neg (by omega)]
    split
    · exact ⟨h, rfl, (hov _ _).symm, hin _ rfl⟩
    · refine ⟨h, rfl, ?_, hin _ rfl⟩
      dsimp only; rw [hov, hov]
  · obtain ⟨r, hr, hf, e1, e2, e3⟩ := h.find hs hp (by omega)
    rw [hf]
    dsimp only
    refine ⟨h, rfl, ?_, hin _ rfl⟩
    funext a
    unfold over
    split
    · rw [devMem_in h.apart hr (by omega) (by omega)]
    · rfl

theorem exit_spec {P : Nat × Nat → Prop} {s : St α} (h : Mapped P s.regions) (hs : Sep P) {b l : Nat}
    (hp : P (b, l)) (copy : Bool) : Mapped (fun p => P p ∧ p ≠ (b, l)) (exit copy s b l).regions ∧
      (exit copy s b l).flags = s.flags ∧
      (exit copy s b l).host = (if copy then over b l (devMem s) s.host else s.host) ∧
      ∀ a, ¬ (b ≤ a ∧ a < b + l) → (∃ p, P p ∧ p.1 ≤ a ∧ a < p.1 + p.2) →
        devMem (exit copy s b l) a = devMem s a := by
  unfold exit
  by_cases hl : l = 0
  · subst hl
    rw [if_pos rfl]
    refine ⟨⟨fun r hr => ?_, fun p hp h0 => h.all p hp.1 h0, h.apart⟩, rfl, ?_, fun a _ _ => rfl⟩
    · obtain ⟨h1, h2, h3⟩ := h.only r hr
      refine ⟨⟨h1, fun e => ?_⟩, h2, h3⟩
      simp only [Prod.mk.injEq] at e
      omega
    · split
      · funext a; unfold over; rw [if_neg (by omega)]
      · rfl
  · rw [if_neg hl]
    obtain ⟨r, hr, hf, e1, e2, e3⟩ := h.find hs hp (by omega)
    rw [hf]
    dsimp only
    have hfil : s.regions.filterMap (fun q => if q.has b l then
          (if q.ref ≤ 1 then none else some { q with ref := q.ref - 1 }) else some q) =
        s.regions.filter (fun q => !q.has b l) := by
      rw [← List.filterMap_eq_filter]
      refine List.filterMap_congr fun q hq => ?_
      have := (h.only q hq).2.2
      cases hb : q.has b l
      · simp [Option.guard, hb]
      · simp [Option.guard, hb, this]
    rw [hfil]
    have hap : (s.regions.filter (fun q => !q.has b l)).Pairwise
        fun r q => r.base + r.len ≤ q.base ∨ q.base + q.len ≤ r.base := h.apart.filter _
    refine ⟨⟨?_, ?_, hap⟩, rfl, ?_, ?_⟩
    · intro q hq
      simp only [List.mem_filter, Bool.not_eq_true'] at hq
      refine ⟨⟨(h.only q hq.1).1, fun e => ?_⟩, (h.only q hq.1).2⟩
      simp only [Prod.mk.injEq] at e
      have : q.has b l = true := by rw [has_iff]; omega
      rw [this] at hq
      exact absurd hq.2 (by simp)
    · rintro p ⟨hp1, hp2⟩ h0
      obtain ⟨q, hq, f1, f2⟩ := h.all p hp1 h0
      refine ⟨q, ?_, f1, f2⟩
      simp only [List.mem_filter, Bool.not_eq_true']
      refine ⟨hq, ?_⟩
      cases hb : q.has b l with
      | false => rfl
      | true =>
        have := (h.has_eq hs hp (by omega) hq).mp hb
        exact absurd (Prod.ext_iff.mpr ⟨by omega, by omega⟩) hp2
    · cases copy
      · rfl
      · simp only [Bool.true_and, e3, Nat.le_refl, decide_true, if_true]
        funext a
        unfold over
        by_cases ha : b ≤ a ∧ a < b + l
        · rw [if_pos ha, if_pos ha, devMem_in h.apart hr (by omega) (by omega)]
        · rw [if_neg ha, if_neg ha]
    · rintro a ha ⟨p, hpp, h1, h2⟩
      obtain ⟨q, hq, f1, f2⟩ := h.all p hpp (by omega)
      have hqb : q.has b l = false := by
        cases hb : q.has b l with
        | false => rfl
        | true =>
          have := (h.has_eq hs hp (by omega) hq).mp hb
          omega
      rw [devMem_in h.apart hq (by omega) (by omega), devMem_in (s := ⟨_, _, _⟩) hap
        (r := q) (by simp only [List.mem_filter, Bool.not_eq_true']; exact ⟨hq, hqb⟩) (by omega) (by omega)]

/-! ### Lists of sections -/

def cov (bs : List (Nat × Nat)) (a : Nat) : Prop := ∃ bl ∈ bs, bl.1 ≤ a ∧ a < bl.1 + bl.2

instance (bs : List (Nat × Nat)) (a : Nat) : Decidable (cov bs a) :=
  inferInstanceAs (Decidable (∃ bl ∈ bs, bl.1 ≤ a ∧ a < bl.1 + bl.2))

theorem cov_nil (a : Nat) : ¬ cov [] a := by rintro ⟨_, h, _⟩; cases h

theorem cov_cons {bl : Nat × Nat} {bs : List (Nat × Nat)} {a : Nat} :
    cov (bl :: bs) a ↔ (bl.1 ≤ a ∧ a < bl.1 + bl.2) ∨ cov bs a := by
  simp [cov]

theorem over_zero (b : Nat) (m m' : Nat → α) : over b 0 m m' = m' := by
  funext a; unfold over; rw [if_neg (by omega)]

theorem updateTo_zero (s : St α) (b : Nat) : updateTo s b 0 = s := by
  unfold updateTo
  have : (fun r : Region α => if r.has b 0 then { r with data := over b 0 s.host r.data } else r) = id := by
    funext r; rw [over_zero]; split <;> rfl
  rw [this, List.map_id]

theorem updateFrom_zero (s : St α) (b : Nat) : updateFrom s b 0 = s := by
  unfold updateFrom
  split
  · rfl
  · rw [over_zero]

theorem exit_zero (c : Bool) (s : St α) (b : Nat) : exit c s b 0 = s := by
  unfold exit; rw [if_pos rfl]

theorem enter_zero (s : St α) (b : Nat) : enter s b 0 = .ok s := by
  unfold enter; rw [if_pos rfl]

theorem updateTo_all {P : Nat × Nat → Prop} (hs : Sep P) : ∀ (bs : List (Nat × Nat)) (s : St α),
    Mapped P s.regions → (∀ bl ∈ bs, 0 < bl.2 → P bl) →
    let t := bs.foldl (fun s bl => updateTo s bl.1 bl.2) s
    Mapped P t.regions ∧ t.host = s.host ∧ t.flags = s.flags ∧
      ∀ a, devMem t a = if cov bs a then s.host a else devMem s a := by
  intro bs
  induction bs with
  | nil =>
    intro s h _
    exact ⟨h, rfl, rfl, fun a => by rw [if_neg (cov_nil a)]; rfl⟩
  | cons bl bs ih =>
    intro s h hb
    have hstep : Mapped P (updateTo s bl.1 bl.2).regions ∧ (updateTo s bl.1 bl.2).host = s.host ∧
        (updateTo s bl.1 bl.2).flags = s.flags ∧
        devMem (updateTo s bl.1 bl.2) = over bl.1 bl.2 s.host (devMem s) := by
      rcases Nat.eq_zero_or_pos bl.2 with h0 | h0
      · rw [h0, updateTo_zero, over_zero]; exact ⟨h, rfl, rfl, rfl⟩
      · exact updateTo_spec h hs (hb bl List.mem_cons_self h0)
    obtain ⟨h1, h2, h3, h4⟩ := hstep
    obtain ⟨g1, g2, g3, g4⟩ := ih (updateTo s bl.1 bl.2) h1 (fun q hq => hb q (List.mem_cons_of_mem _ hq))
    refine ⟨g1, g2.trans h2, g3.trans h3, fun a => ?_⟩
    rw [List.foldl_cons, g4 a, h2, h4]
    unfold over
    by_cases c1 : cov bs a
    · rw [if_pos c1, if_pos (cov_cons.mpr (Or.inr c1))]
    · rw [if_neg c1]
      by_cases c2 : bl.1 ≤ a ∧ a < bl.1 + bl.2
      · rw [if_pos c2, if_pos (cov_cons.mpr (Or.inl c2))]
      · rw [if_neg c2, if_neg (fun h => (cov_cons.mp h).elim c2 c1)]

theorem updateFrom_all {P : Nat × Nat → Prop} (hs : Sep P) : ∀ (bs : List (Nat × Nat)) (s : St α),
    Mapped P s.regions → (∀ bl ∈ bs, 0 < bl.2 → P bl) →
    let t := bs.foldl (fun s bl => updateFrom s bl.1 bl.2) s
    Mapped P t.regions ∧ t.flags = s.flags ∧
      (∀ a, t.host a = if cov bs a then devMem s a else s.host a) ∧
      ∀ a, (∃ p, P p ∧ p.1 ≤ a ∧ a < p.1 + p.2) → devMem t a = devMem s a := by
  intro bs
  induction bs with
  | nil =>
    intro s h _
    exact ⟨h, rfl, fun a => by rw [if_neg (cov_nil a)]; rfl, fun a _ => rfl⟩
  | cons bl bs ih =>
    intro s h hb
    have hstep : Mapped P (updateFrom s bl.1 bl.2).regions ∧ (updateFrom s bl.1 bl.2).flags = s.flags ∧
        (updateFrom s bl.1 bl.2).host = over bl.1 bl.2 (devMem s) s.host ∧
        ∀ a, (∃ p, P p ∧ p.1 ≤ a ∧ a < p.1 + p.2) → devMem (updateFrom s bl.1 bl.2) a = devMem s a := by
      rcases Nat.eq_zero_or_pos bl.2 with h0 | h0
      · rw [h0, updateFrom_zero, over_zero]; exact ⟨h, rfl, rfl, fun _ _ => rfl⟩
      · exact updateFrom_spec h hs (hb bl List.mem_cons_self h0)
    obtain ⟨h1, h2, h3, h4⟩ := hstep
    obtain ⟨g1, g2, g3, g4⟩ := ih (updateFrom s bl.1 bl.2) h1 (fun q hq => hb q (List.mem_cons_of_mem _ hq))
    refine ⟨g1, g2.trans h2, fun a => ?_, fun a ha => (g4 a ha).trans (h4 a ha)⟩
    rw [List.foldl_cons, g3 a, h3]
    unfold over
    by_cases c1 : cov bs a
    · rw [if_pos c1, if_pos (cov_cons.mpr (Or.inr c1))]
      obtain ⟨q, hq, q1, q2⟩ := c1
      exact h4 a ⟨q, hb q (List.mem_cons_of_mem _ hq) (by omega), q1, q2⟩
    · rw [if_neg c1]
      by_cases c2 : bl.1 ≤ a ∧ a < bl.1 + bl.2
      · rw [if_pos c2, if_pos (cov_cons.mpr (Or.inl c2))]
      · rw [if_neg c2, if_neg (fun h => (cov_cons.mp h).elim c2 c1)]

theorem enter_all : ∀ (bs : List (Nat × Nat)) {P : Nat × Nat → Prop} (s : St α), Mapped P s.regions →
    bs.Pairwise Apart → (∀ bl ∈ bs, ∀ p, P p → Apart p bl) →
    ∃ t, enterAll s bs = .ok t ∧ Mapped (fun p => P p ∨ (p ∈ bs ∧ 0 < p.2)) t.regions ∧ t.host = s.host ∧
      t.flags = s.flags ∧ ∀ a, devMem t a = if cov bs a then s.host a else devMem s a := by
  intro bs
  induction bs with
  | nil =>
    intro P s h _ _
    refine ⟨s, rfl, ?_, rfl, rfl, fun a => by rw [if_neg (cov_nil a)]⟩
    have : (fun p => P p ∨ (p ∈ ([] : List (Nat × Nat)) ∧ 0 < p.2)) = P := by funext p; simp
    rw [this]; exact h
  | cons bl bs ih =>
    intro P s h hpw hn
    rw [List.pairwise_cons] at hpw
    have hstep : ∃ t, enter s bl.1 bl.2 = .ok t ∧ Mapped (fun p => P p ∨ (p = bl ∧ 0 < p.2)) t.regions ∧
        t.host = s.host ∧ t.flags = s.flags ∧ devMem t = over bl.1 bl.2 s.host (devMem s) := by
      rcases Nat.eq_zero_or_pos bl.2 with h0 | h0
      · rw [h0, enter_zero, over_zero]
        refine ⟨s, rfl, ?_, rfl, rfl, rfl⟩
        have : (fun p => P p ∨ (p = bl ∧ 0 < p.2)) = P := by
          funext p
          refine propext ⟨fun h => ?_, Or.inl⟩
          rcases h with h | ⟨rfl, h⟩
          · exact h
          · omega
        rw [this]; exact h
      · obtain ⟨t, h1, h2, h3, h4, h5⟩ := enter_spec h (hn bl List.mem_cons_self)
        refine ⟨t, h1, ?_, h3, h4, h5⟩
        have : (fun p => P p ∨ (p = bl ∧ 0 < p.2)) = fun p => P p ∨ p = (bl.1, bl.2) := by
          funext p
          refine propext ⟨fun h => h.imp id (fun h => h.1), fun h => h.imp id (fun h => ?_)⟩
          subst h; exact ⟨rfl, h0⟩
        rw [this]; exact h2
    obtain ⟨t, e1, m1, hh, hf, hd⟩ := hstep
    obtain ⟨u, e2, m2, gh, gf, gd⟩ := ih t m1 hpw.2 (by
      intro q hq p hp
      rcases hp with hp | ⟨rfl, _⟩
      · exact hn q (List.mem_cons_of_mem _ hq) p hp
      · exact hpw.1 q hq)
    refine ⟨u, ?_, ?_, gh.trans hh, gf.trans hf, fun a => ?_⟩
    · show (enter s bl.1 bl.2).bind (fun s => enterAll s bs) = _
      rw [e1]; exact e2
    · have : (fun p => P p ∨ (p ∈ bl :: bs ∧ 0 < p.2)) =
          fun p => (P p ∨ (p = bl ∧ 0 < p.2)) ∨ (p ∈ bs ∧ 0 < p.2) := by
        funext p
        simp only [List.mem_cons, eq_iff_iff]
        tauto
      rw [this]; exact m2
    · rw [gd a, hh, hd]
      unfold over
      by_cases c1 : cov bs a
      · rw [if_pos c1, if_pos (cov_cons.mpr (Or.inr c1))]
      · rw [if_neg c1]
        by_cases c2 : bl.1 ≤ a ∧ a < bl.1 + bl.2
        · rw [if_pos c2, if_pos (cov_cons.mpr (Or.inl c2))]
        · rw [if_neg c2, if_neg (fun h => (cov_cons.mp h).elim c2 c1)]

theorem exit_all (copy : Bool) : ∀ (bs : List (Nat × Nat)) {P : Nat × Nat → Prop} (s : St α), Sep P →
    Mapped P s.regions → bs.Pairwise Apart → (∀ bl ∈ bs, 0 < bl.2 → P bl) →
    let t := bs.foldl (fun s bl => exit copy s bl.1 bl.2) s
    Mapped (fun p => P p ∧ (0 < p.2 → p ∉ bs)) t.regions ∧ t.flags = s.flags ∧
      (∀ a, t.host a = if copy = true ∧ cov bs a then devMem s a else s.host a) ∧
      ∀ a, ¬ cov bs a → (∃ p, P p ∧ p.1 ≤ a ∧ a < p.1 + p.2) → devMem t a = devMem s a := by
  intro bs
  induction bs with
  | nil =>
    intro P s _ h _ _
    refine ⟨?_, rfl, fun a => by rw [if_neg (fun h => cov_nil a h.2)]; rfl, fun a _ _ => rfl⟩
    have : (fun p => P p ∧ (0 < p.2 → p ∉ ([] : List (Nat × Nat)))) = P := by funext p; simp
    rw [this]; exact h
  | cons bl bs ih =>
    intro P s hs h hpw hb
    rw [List.pairwise_cons] at hpw
    have hstep : Mapped (fun p => P p ∧ (0 < p.2 → p ≠ bl)) (exit copy s bl.1 bl.2).regions ∧
        (exit copy s bl.1 bl.2).flags = s.flags ∧
        (exit copy s bl.1 bl.2).host = (if copy then over bl.1 bl.2 (devMem s) s.host else s.host) ∧
        ∀ a, ¬ (bl.1 ≤ a ∧ a < bl.1 + bl.2) → (∃ p, P p ∧ p.1 ≤ a ∧ a < p.1 + p.2) →
          devMem (exit copy s bl.1 bl.2) a = devMem s a := by
      rcases Nat.eq_zero_or_pos bl.2 with h0 | h0
      · rw [h0, exit_zero, over_zero]
        refine ⟨?_, rfl, by split <;> rfl, fun _ _ _ => rfl⟩
        have : (fun p => P p ∧ (0 < p.2 → p ≠ bl)) = P := by
          funext p
          refine propext ⟨fun h => h.1, fun h => ⟨h, fun h1 e => ?_⟩⟩
          subst e; omega
        rw [this]; exact h
      · obtain ⟨g1, g2, g3, g4⟩ := exit_spec h hs (hb bl List.mem_cons_self h0) copy
        refine ⟨?_, g2, g3, g4⟩
        have : (fun p => P p ∧ (0 < p.2 → p ≠ bl)) = fun p => P p ∧ p ≠ (bl.1, bl.2) := by
          funext p
          refine propext ⟨fun h => ⟨h.1, fun e => ?_⟩, fun h => ⟨h.1, fun _ => h.2⟩⟩
          subst e; exact h.2 h0 rfl
        rw [this]; exact g1
    obtain ⟨m1, f1, hh, hd⟩ := hstep
    have hs1 : Sep (fun p => P p ∧ (0 < p.2 → p ≠ bl)) := fun p q hp hq => hs p q hp.1 hq.1
    have hb1 : ∀ q ∈ bs, 0 < q.2 → P q ∧ (0 < q.2 → q ≠ bl) := by
      intro q hq h0
      refine ⟨hb q (List.mem_cons_of_mem _ hq) h0, fun _ e => ?_⟩
      have := hpw.1 q hq
      subst e
      unfold Apart at this; omega
    obtain ⟨m2, f2, gh, gd⟩ := ih (exit copy s bl.1 bl.2) hs1 m1 hpw.2 hb1
    have hdis : ∀ a, cov bs a → ¬ (bl.1 ≤ a ∧ a < bl.1 + bl.2) := by
      rintro a ⟨q, hq, q1, q2⟩ hc
      have := hpw.1 q hq
      unfold Apart at this; omega
    refine ⟨?_, f2.trans f1, fun a => ?_, fun a ha hp => ?_⟩
    · have : (fun p => P p ∧ (0 < p.2 → p ∉ bl :: bs)) =
          fun p => (P p ∧ (0 < p.2 → p ≠ bl)) ∧ (0 < p.2 → p ∉ bs) := by
        funext p
        simp only [List.mem_cons, not_or, eq_iff_iff]
        tauto
      rw [this]; exact m2
    · rw [List.foldl_cons, gh a, hh]
      cases copy
      · simp
      · simp only [true_and, if_true]
        unfold over
        by_cases c1 : cov bs a
        · rw [if_pos c1, if_pos (cov_cons.mpr (Or.inr c1))]
          refine hd a (hdis a c1) ?_
          obtain ⟨q, hq, q1, q2⟩ := c1
          exact ⟨q, (hb1 q hq (by omega)).1, q1, q2⟩
        · rw [if_neg c1]
          by_cases c2 : bl.1 ≤ a ∧ a < bl.1 + bl.2
          · rw [if_pos c2, if_pos (cov_cons.mpr (Or.inl c2))]
          · rw [if_neg c2, if_neg (fun h => (cov_cons.mp h).elim c2 c1)]
    · rw [cov_cons, not_or] at ha
      obtain ⟨p, hp1, q1, q2⟩ := hp
      rw [List.foldl_cons, gd a ha.2 ⟨p, ⟨hp1, fun _ e => ?_⟩, q1, q2⟩, hd a ha.1 ⟨p, hp1, q1, q2⟩]
      subst e
      exact ha.1 ⟨q1, q2⟩

end Verif.Dev
