import Verif.Lemmas.Device

/-!
C83: the same program gives the same results in a CPU build and in a GPU build.
C84: the status flag tells where the data are.
-/

namespace Verif.Dev

open Verif.Spec.Device

variable {α : Type} {U : Nat → List (Nat × Nat)}

/-- the sections of the objects that are on the device -/
def On (U : Nat → List (Nat × Nat)) (fl : Nat → Bool) (p : Nat × Nat) : Prop :=
  ∃ f, fl f = true ∧ p ∈ U f ∧ 0 < p.2

/-- the device data environment is what the flags say -/
def Good (U : Nat → List (Nat × Nat)) (s : St α) : Prop := Mapped (On U s.flags) s.regions

theorem apart_of (hU : Separate U) {f g : Nat} {p q : Nat × Nat} (hp : p ∈ U f) (hq : q ∈ U g) :
    p = q ∨ Apart p q := by
  by_cases h : f = g
  · subst h
    have h1 : (U f).Pairwise (fun p q => p = q ∨ Apart p q) := (hU.inside f).imp fun h => Or.inr h
    have h2 : (U f).Pairwise (flip fun p q => p = q ∨ Apart p q) := (hU.inside f).imp fun {a b} h => by
      show b = a ∨ Apart b a
      exact Or.inr (Apart.symm h)
    exact List.Pairwise.forall_of_forall_of_flip (R := fun p q : Nat × Nat => p = q ∨ Apart p q)
      (fun x _ => Or.inl rfl) h1 h2 hp hq
  · exact Or.inr (hU.across f g h p hp q hq)

theorem sep_on (hU : Separate U) (fl : Nat → Bool) : Sep (On U fl) := by
  rintro p q ⟨f, _, hp, _⟩ ⟨g, _, hq, _⟩
  exact apart_of hU hp hq

theorem on_upd_true (fl : Nat → Bool) (f : Nat) :
    On U (fun g => if g = f then true else fl g) = fun p => On U fl p ∨ (p ∈ U f ∧ 0 < p.2) := by
  funext p
  refine propext ⟨?_, ?_⟩
  · rintro ⟨g, hg, hp, h0⟩
    by_cases e : g = f
    · subst e; exact Or.inr ⟨hp, h0⟩
    · simp only [if_neg e] at hg; exact Or.inl ⟨g, hg, hp, h0⟩
  · rintro (⟨g, hg, hp, h0⟩ | ⟨hp, h0⟩)
    · exact ⟨g, by simp [hg], hp, h0⟩
    · exact ⟨f, by simp, hp, h0⟩

theorem on_upd_false (hU : Separate U) (fl : Nat → Bool) (f : Nat) :
    On U (fun g => if g = f then false else fl g) = fun p => On U fl p ∧ (0 < p.2 → p ∉ U f) := by
  funext p
  refine propext ⟨?_, ?_⟩
  · rintro ⟨g, hg, hp, h0⟩
    by_cases e : g = f
    · subst e; simp at hg
    · simp only [if_neg e] at hg
      refine ⟨⟨g, hg, hp, h0⟩, fun _ hf => ?_⟩
      have := hU.across g f e p hp p hf
      unfold Apart at this; omega
  · rintro ⟨⟨g, hg, hp, h0⟩, hn⟩
    refine ⟨g, ?_, hp, h0⟩
    by_cases e : g = f
    · subst e; exact absurd hp (hn h0)
    · simp only [if_neg e]; exact hg

theorem flags_self (fl : Nat → Bool) (f : Nat) {v : Bool} (h : fl f = v) :
    (fun g => if g = f then v else fl g) = fl := by
  funext g
  by_cases e : g = f
  · subst e; rw [if_pos rfl, h]
  · rw [if_neg e]

theorem covers_iff {o : Obj} {a : Nat} : o.covers a ↔ cov o.bufs a := Iff.rfl

/-- an address of an object that is on the device -/
theorem on_of_cov {fl : Nat → Bool} {f a : Nat} (hf : fl f = true) (ha : cov (U f) a) :
    ∃ p, On U fl p ∧ p.1 ≤ a ∧ a < p.1 + p.2 := by
  obtain ⟨p, hp, h1, h2⟩ := ha
  exact ⟨p, ⟨f, hf, hp, by omega⟩, h1, h2⟩

theorem not_cov_of_ne (hU : Separate U) {f g a : Nat} (h : f ≠ g) (ha : cov (U f) a) : ¬ cov (U g) a := by
  rintro ⟨q, hq, q1, q2⟩
  obtain ⟨p, hp, p1, p2⟩ := ha
  have := hU.across f g h p hp q hq
  unfold Apart at this; omega

theorem send_spec (hU : Separate U) {s : St α} (h : Good U s) {o : Obj} (hk : Known U o) :
    ∃ t, send s o = .ok t ∧ Good U t ∧ t.flags = upd s.flags o.flag true ∧ t.host = s.host ∧
      ∀ a, devMem t a = if o.covers a then s.host a else devMem s a := by
  unfold send
  cases hf : s.flags o.flag with
  | true =>
    rw [if_pos rfl]
    obtain ⟨h1, h2, h3, h4⟩ := updateTo_all (sep_on hU s.flags) o.bufs s h (by
      intro bl hbl h0
      rw [hk] at hbl
      exact ⟨_, hf, hbl, h0⟩)
    refine ⟨_, rfl, ?_, ?_, h2, h4⟩
    · unfold Good; rw [h3]; exact h1
    · rw [h3]; exact (flags_self _ _ hf).symm
  | false =>
    simp only [Bool.false_eq_true, if_false]
    obtain ⟨t, e, m, h2, h3, h4⟩ := enter_all o.bufs s h (by rw [hk]; exact hU.inside _) (by
      rintro bl hbl p ⟨g, hg, hp, h0⟩
      rw [hk] at hbl
      refine hU.across g o.flag (fun e => ?_) p hp bl hbl
      subst e; rw [hf] at hg; exact absurd hg (by simp))
    refine ⟨setFlag t o.flag true, ?_, ?_, ?_, h2, h4⟩
    · rw [e]; rfl
    · unfold Good setFlag
      dsimp only
      rw [on_upd_true, h3, ← hk]
      exact m
    · unfold setFlag upd; dsimp only; rw [h3]

theorem exit_spec' (hU : Separate U) {s : St α} (h : Good U s) {o : Obj} (hk : Known U o) (copy : Bool)
    (hf : s.flags o.flag = true) :
    let t := setFlag (o.bufs.foldl (fun s bl => exit copy s bl.1 bl.2) s) o.flag false
    Good U t ∧ t.flags = upd s.flags o.flag false ∧
      (∀ a, t.host a = if copy = true ∧ o.covers a then devMem s a else s.host a) ∧
      ∀ g a, g ≠ o.flag → s.flags g = true → cov (U g) a → devMem t a = devMem s a := by
  obtain ⟨h1, h2, h3, h4⟩ := exit_all copy o.bufs s (sep_on hU s.flags) h (by rw [hk]; exact hU.inside _) (by
    intro bl hbl h0
    rw [hk] at hbl
    exact ⟨_, hf, hbl, h0⟩)
  refine ⟨?_, ?_, h3, ?_⟩
  · unfold Good setFlag
    dsimp only
    rw [on_upd_false hU, h2, ← hk]
    exact h1
  · unfold setFlag upd; dsimp only; rw [h2]
  · intro g a hg hon ha
    have : devMem (setFlag (o.bufs.foldl (fun s bl => exit copy s bl.1 bl.2) s) o.flag false) a =
        devMem (o.bufs.foldl (fun s bl => exit copy s bl.1 bl.2) s) a := rfl
    rw [this]
    refine h4 a ?_ (on_of_cov hon ha)
    rw [hk]
    exact not_cov_of_ne hU hg ha

theorem recv_spec (hU : Separate U) {s : St α} (h : Good U s) {o : Obj} (hk : Known U o) :
    Good U (recv s o) ∧ (recv s o).flags = upd s.flags o.flag false ∧
      (∀ a, (recv s o).host a = if s.flags o.flag = true ∧ o.covers a then devMem s a else s.host a) ∧
      ∀ g a, g ≠ o.flag → s.flags g = true → cov (U g) a → devMem (recv s o) a = devMem s a := by
  unfold recv
  cases hf : s.flags o.flag with
  | true =>
    obtain ⟨h1, h2, h3, h4⟩ := exit_spec' hU h hk true hf
    rw [if_pos rfl]
    exact ⟨h1, h2, h3, h4⟩
  | false =>
    simp only [Bool.false_eq_true, if_false, false_and]
    refine ⟨h, (flags_self _ _ hf).symm, ?_, ?_⟩ <;> intros <;> trivial

theorem free_spec (hU : Separate U) {s : St α} (h : Good U s) {o : Obj} (hk : Known U o) :
    Good U (deviceFree s o) ∧ (deviceFree s o).flags = upd s.flags o.flag false ∧
      (deviceFree s o).host = s.host ∧
      ∀ g a, g ≠ o.flag → s.flags g = true → cov (U g) a → devMem (deviceFree s o) a = devMem s a := by
  unfold deviceFree
  cases hf : s.flags o.flag with
  | true =>
    obtain ⟨h1, h2, h3, h4⟩ := exit_spec' hU h hk false hf
    rw [if_pos rfl]
    exact ⟨h1, h2, funext fun a => by simpa using h3 a, h4⟩
  | false =>
    simp only [Bool.false_eq_true, if_false]
    refine ⟨h, (flags_self _ _ hf).symm, ?_, ?_⟩ <;> intros <;> trivial

theorem nonfree_spec (hU : Separate U) {s : St α} (h : Good U s) {o : Obj} (hk : Known U o) :
    Good U (nonfreeRecv s o) ∧ (nonfreeRecv s o).flags = s.flags ∧
      (∀ a, (nonfreeRecv s o).host a = if s.flags o.flag = true ∧ o.covers a then devMem s a else s.host a) ∧
      ∀ g a, s.flags g = true → cov (U g) a → devMem (nonfreeRecv s o) a = devMem s a := by
  unfold nonfreeRecv
  cases hf : s.flags o.flag with
  | true =>
    obtain ⟨h1, h2, h3, h4⟩ := updateFrom_all (sep_on hU s.flags) o.bufs s h (by
      intro bl hbl h0
      rw [hk] at hbl
      exact ⟨_, hf, hbl, h0⟩)
    rw [if_pos rfl]
    refine ⟨?_, h2, ?_, fun g a hg ha => h4 a (on_of_cov hg ha)⟩
    · unfold Good; rw [h2]; exact h1
    · intro a; rw [h3 a]; simp [covers_iff]
  | false =>
    simp only [Bool.false_eq_true, if_false, false_and]
    refine ⟨h, ?_, ?_, ?_⟩ <;> intros <;> trivial

theorem present_of (hU : Separate U) {s : St α} (h : Good U s) {o : Obj} (hk : Known U o)
    (hf : s.flags o.flag = true) : present s o = true := by
  unfold present
  rw [List.all_eq_true]
  intro bl hbl
  rw [hk] at hbl
  rcases Nat.eq_zero_or_pos bl.2 with h0 | h0
  · simp [h0]
  · obtain ⟨r, hr, e1, e2⟩ := h.all bl ⟨_, hf, hbl, h0⟩ h0
    simp only [Bool.or_eq_true, List.any_eq_true]
    exact Or.inr ⟨r, hr, by rw [has_iff]; omega⟩

theorem devMem_same {s s' : St α} (e : s'.regions = s.regions)
    (hR : s.regions.Pairwise fun r q => r.base + r.len ≤ q.base ∨ q.base + q.len ≤ r.base)
    {r : Region α} (hr : r ∈ s.regions) {a : Nat} (h1 : r.base ≤ a) (h2 : a < r.base + r.len) :
    devMem s' a = devMem s a := by
  rw [devMem_in (s := s) hR hr h1 h2, devMem_in (s := s') (by rw [e]; exact hR) (by rw [e]; exact hr) h1 h2]

/-- a computing function whose arguments are all on the same side -/
theorem compute_spec (hU : Separate U) {s : St α} (h : Good U s) {y : Obj} {xs : List Obj}
    {g : (Nat → α) → Nat → α} (hk : ∀ o ∈ y :: xs, Known U o) (hs : ∀ o ∈ y :: xs, s.flags o.flag = s.flags y.flag) :
    ∃ t, compute s y xs g = .ok t ∧ Good U t ∧ t.flags = s.flags ∧
      (s.flags y.flag = true → t.host = s.host ∧ ∀ f a, s.flags f = true → cov (U f) a →
        devMem t a = if y.covers a then g (devMem s) a else devMem s a) ∧
      (s.flags y.flag = false → (t.host = fun a => if y.covers a then g s.host a else s.host a) ∧
        ∀ f a, s.flags f = true → cov (U f) a → devMem t a = devMem s a) := by
  unfold compute
  have hc : (xs.all fun x => s.flags x.flag == s.flags y.flag) = true := by
    rw [List.all_eq_true]
    intro x hx
    rw [hs x (List.mem_cons_of_mem _ hx)]
    simp
  rw [hc]
  cases hf : s.flags y.flag with
  | true =>
    have hp : ((y :: xs).all (present s)) = true := by
      rw [List.all_eq_true]
      intro o ho
      exact present_of hU h (hk o ho) (by rw [hs o ho, hf])
    refine ⟨{ s with regions := s.regions.map fun r =>
              { r with data := fun a => if y.covers a then g (devMem s) a else r.data a } }, ?_, ?_, ?_, ?_, ?_⟩
    · simp only [cassert, if_true, Res.ok_bind, hp]
    · exact h.map _ fun r => ⟨rfl, rfl, rfl⟩
    · rfl
    · intro _
      refine ⟨rfl, fun f a hfa ha => ?_⟩
      rw [devMem_map (s := s) (fun r => { r with data := fun a => if y.covers a then g (devMem s) a else r.data a })
        (fun r => ⟨rfl, rfl⟩)]
      obtain ⟨p, ⟨f', h1, h2, h0⟩, p1, p2⟩ := on_of_cov hfa ha
      obtain ⟨r, hr, e1, e2⟩ := h.all p ⟨f', h1, h2, h0⟩ h0
      have hd := devMem_in h.apart hr (a := a) (by omega) (by omega)
      unfold devMem at hd ⊢
      cases hfind : s.regions.find? (fun r => r.has a 1) with
      | none =>
        rw [List.find?_eq_none] at hfind
        exact absurd (by rw [has_iff]; omega) (hfind r hr)
      | some q => rfl
    · intro hc; exact absurd hc (by simp)
  | false =>
    refine ⟨{ s with host := fun a => if y.covers a then g s.host a else s.host a }, ?_, h, rfl, ?_, ?_⟩
    · simp [cassert, Res.ok_bind]
    · intro hc; exact absurd hc (by simp)
    · intro _
      refine ⟨rfl, fun f a hfa ha => ?_⟩
      obtain ⟨p, ⟨f', h1, h2, h0⟩, p1, p2⟩ := on_of_cov hfa ha
      obtain ⟨r, hr, e1, e2⟩ := h.all p ⟨f', h1, h2, h0⟩ h0
      refine devMem_same (s := s) ?_ h.apart hr (a := a) (by omega) (by omega); rfl

/-- what the two builds have in common: `m` is the memory of the CPU build -/
structure Sim (U : Nat → List (Nat × Nat)) (on dirty : Nat → Bool) (s : St α) (m : Nat → α) : Prop where
  good : Good U s
  flags : s.flags = on
  val : ∀ f a, cov (U f) a → (if on f then devMem s a else s.host a) = m a
  clean : ∀ f a, on f = true → dirty f = false → cov (U f) a → s.host a = m a

theorem upd_self (f : Nat → Bool) (i : Nat) (v : Bool) : upd f i v i = v := by unfold upd; rw [if_pos rfl]

theorem upd_ne {f : Nat → Bool} {i j : Nat} (v : Bool) (h : j ≠ i) : upd f i v j = f j := by
  unfold upd; rw [if_neg h]

/-- one CPU-build state -/
def cpu (m : Nat → α) : St α := { host := m, regions := [], flags := fun _ => false }

theorem sim_run (hU : Separate U) : ∀ (p : List (Op α)) (on dirty : Nat → Bool) (s : St α) (m : Nat → α),
    Sim U on dirty s m → Portable U on dirty p →
    ∃ s' m' on' dirty', run true s p = .ok s' ∧ run false (cpu m) p = .ok (cpu m') ∧ Sim U on' dirty' s' m' := by
  intro p
  induction p with
  | nil => intro on dirty s m h _; exact ⟨s, m, on, dirty, rfl, rfl, h⟩
  | cons op p ih =>
    intro on dirty s m h hp
    cases op with
    | send o =>
      obtain ⟨hk, hd, hp⟩ := hp
      obtain ⟨t, e, g1, g2, g3, g4⟩ := send_spec hU h.good hk
      suffices hsim : Sim U (upd on o.flag true) (upd dirty o.flag false) t m by
        obtain ⟨s', m', on', dirty', r1, r2, r3⟩ := ih _ _ _ _ hsim hp
        refine ⟨s', m', on', dirty', ?_, r2, r3⟩
        show (send s o).bind (fun s => run true s p) = _
        rw [e]; exact r1
      refine ⟨g1, by rw [g2, h.flags], ?_, ?_⟩
      · intro f a ha
        by_cases hf : f = o.flag
        · subst hf
          rw [upd_self, if_pos rfl, g4, if_pos (by rw [covers_iff, hk]; exact ha)]
          cases ho : on o.flag with
          | true => exact h.clean _ a ho (hd ho) ha
          | false => have := h.val _ a ha; rw [ho] at this; exact this
        · have hn : ¬ o.covers a := by rw [covers_iff, hk]; exact not_cov_of_ne hU hf ha
          rw [upd_ne _ hf, g3, g4]
          simp only [if_neg hn]
          exact h.val f a ha
      · intro f a hon hdf ha
        rw [g3]
        by_cases hf : f = o.flag
        · subst hf
          cases ho : on o.flag with
          | true => exact h.clean _ a ho (hd ho) ha
          | false => have := h.val _ a ha; rw [ho] at this; exact this
        · rw [upd_ne _ hf] at hon hdf
          exact h.clean f a hon hdf ha
    | recv o =>
      obtain ⟨hk, hp⟩ := hp
      obtain ⟨g1, g2, g3, g4⟩ := recv_spec hU h.good hk
      suffices hsim : Sim U (upd on o.flag false) (upd dirty o.flag false) (recv s o) m by
        obtain ⟨s', m', on', dirty', r1, r2, r3⟩ := ih _ _ _ _ hsim hp
        exact ⟨s', m', on', dirty', r1, r2, r3⟩
      refine ⟨g1, by rw [g2, h.flags], ?_, ?_⟩
      · intro f a ha
        by_cases hf : f = o.flag
        · subst hf
          rw [upd_self]
          simp only [Bool.false_eq_true, if_false]
          rw [g3, h.flags]
          have hv := h.val _ a ha
          cases ho : on o.flag with
          | true =>
            rw [ho] at hv
            rw [if_pos ⟨rfl, by rw [covers_iff, hk]; exact ha⟩]; exact hv
          | false =>
            rw [ho] at hv
            rw [if_neg (by simp)]; exact hv
        · rw [upd_ne _ hf]
          have hv := h.val f a ha
          cases ho : on f with
          | true =>
            rw [ho, if_pos rfl] at hv
            rw [if_pos rfl, g4 f a hf (by rw [h.flags]; exact ho) ha]; exact hv
          | false =>
            rw [ho] at hv
            simp only [Bool.false_eq_true, if_false] at hv ⊢
            rw [g3, if_neg (fun hc => by
              have := hc.2; rw [covers_iff, hk] at this; exact not_cov_of_ne hU hf ha this)]
            exact hv
      · intro f a hon hdf ha
        have hf : f ≠ o.flag := by
          intro e; subst e; rw [upd_self] at hon; exact absurd hon (by simp)
        rw [upd_ne _ hf] at hon hdf
        rw [g3, if_neg (fun hc => by
          have := hc.2; rw [covers_iff, hk] at this; exact not_cov_of_ne hU hf ha this)]
        exact h.clean f a hon hdf ha
    | nonfreeRecv o =>
      obtain ⟨hk, hp⟩ := hp
      obtain ⟨g1, g2, g3, g4⟩ := nonfree_spec hU h.good hk
      suffices hsim : Sim U on (upd dirty o.flag false) (nonfreeRecv s o) m by
        obtain ⟨s', m', on', dirty', r1, r2, r3⟩ := ih _ _ _ _ hsim hp
        exact ⟨s', m', on', dirty', r1, r2, r3⟩
      refine ⟨g1, by rw [g2, h.flags], ?_, ?_⟩
      · intro f a ha
        have hv := h.val f a ha
        cases ho : on f with
        | true =>
          rw [ho, if_pos rfl] at hv
          rw [if_pos rfl, g4 f a (by rw [h.flags]; exact ho) ha]; exact hv
        | false =>
          rw [ho] at hv
          simp only [Bool.false_eq_true, if_false] at hv ⊢
          rw [g3, if_neg (fun hc => ?_)]
          · exact hv
          · have h2 := hc.2
            rw [covers_iff, hk] at h2
            by_cases hf : f = o.flag
            · subst hf; rw [h.flags, ho] at hc; exact absurd hc.1 (by simp)
            · exact not_cov_of_ne hU hf ha h2
      · intro f a hon hdf ha
        rw [g3]
        have hv := h.val f a ha
        rw [hon, if_pos rfl] at hv
        by_cases hf : f = o.flag
        · subst hf
          rw [if_pos ⟨by rw [h.flags]; exact hon, by rw [covers_iff, hk]; exact ha⟩]; exact hv
        · rw [upd_ne _ hf] at hdf
          rw [if_neg (fun hc => by
            have := hc.2; rw [covers_iff, hk] at this; exact not_cov_of_ne hU hf ha this)]
          exact h.clean f a hon hdf ha
    | deviceFree o =>
      obtain ⟨hk, hd, hp⟩ := hp
      obtain ⟨g1, g2, g3, g4⟩ := free_spec hU h.good hk
      suffices hsim : Sim U (upd on o.flag false) (upd dirty o.flag false) (deviceFree s o) m by
        obtain ⟨s', m', on', dirty', r1, r2, r3⟩ := ih _ _ _ _ hsim hp
        exact ⟨s', m', on', dirty', r1, r2, r3⟩
      refine ⟨g1, by rw [g2, h.flags], ?_, ?_⟩
      · intro f a ha
        have hv := h.val f a ha
        by_cases hf : f = o.flag
        · subst hf
          rw [upd_self, g3]
          simp only [Bool.false_eq_true, if_false]
          cases ho : on o.flag with
          | true => exact h.clean _ a ho (hd ho) ha
          | false => rw [ho] at hv; exact hv
        · rw [upd_ne _ hf, g3]
          cases ho : on f with
          | true =>
            rw [ho, if_pos rfl] at hv
            rw [if_pos rfl, g4 f a hf (by rw [h.flags]; exact ho) ha]; exact hv
          | false => rw [ho] at hv; exact hv
      · intro f a hon hdf ha
        have hf : f ≠ o.flag := by
          intro e; subst e; rw [upd_self] at hon; exact absurd hon (by simp)
        rw [upd_ne _ hf] at hon hdf
        rw [g3]
        exact h.clean f a hon hdf ha
    | compute y xs g =>
      obtain ⟨hk, hl, hp⟩ := hp
      obtain ⟨t, e, g1, g2, g3, g4⟩ := compute_spec (g := g) hU h.good (fun o ho => (hk o ho).1)
        (fun o ho => by rw [h.flags]; exact (hk o ho).2)
      let m1 : Nat → α := fun a => if y.covers a then g m a else m a
      have hcpu : compute (cpu m) y xs g = .ok (cpu m1) := by
        unfold compute cpu
        have : (xs.all fun x => (false == false)) = true := by simp
        simp [cassert, Res.ok_bind, m1]
      suffices hsim : Sim U on (upd dirty y.flag (on y.flag)) t m1 by
        obtain ⟨s', m', on', dirty', r1, r2, r3⟩ := ih _ _ _ _ hsim hp
        refine ⟨s', m', on', dirty', ?_, ?_, r3⟩
        · show (compute s y xs g).bind (fun s => run true s p) = _
          rw [e]; exact r1
        · show (compute (cpu m) y xs g).bind (fun s => run false s p) = _
          rw [hcpu]; exact r2
      refine ⟨g1, by rw [g2, h.flags], ?_, ?_⟩
      · intro f a ha
        have hv := h.val f a ha
        have hy := (hk y List.mem_cons_self).1
        cases hoy : on y.flag with
        | true =>
          obtain ⟨k1, k2⟩ := g3 (by rw [h.flags]; exact hoy)
          have hgl : ∀ a, y.covers a → g (devMem s) a = g m a := hl _ _ (by
            intro o ho c hc
            have := h.val o.flag c (by rw [covers_iff, (hk o ho).1] at hc; exact hc)
            rw [(hk o ho).2, hoy, if_pos rfl] at this
            exact this)
          cases ho : on f with
          | true =>
            rw [ho, if_pos rfl] at hv
            rw [if_pos rfl, k2 f a (by rw [h.flags]; exact ho) ha]
            show _ = if y.covers a then g m a else m a
            split
            · exact hgl a ‹_›
            · exact hv
          | false =>
            rw [ho] at hv
            simp only [Bool.false_eq_true, if_false] at hv ⊢
            have hne : f ≠ y.flag := by intro e; subst e; rw [hoy] at ho; exact absurd ho (by simp)
            rw [k1]
            show _ = if y.covers a then g m a else m a
            rw [if_neg (by rw [covers_iff, hy]; exact not_cov_of_ne hU hne ha)]
            exact hv
        | false =>
          obtain ⟨k1, k2⟩ := g4 (by rw [h.flags]; exact hoy)
          have hgl : ∀ a, y.covers a → g s.host a = g m a := hl _ _ (by
            intro o ho c hc
            have := h.val o.flag c (by rw [covers_iff, (hk o ho).1] at hc; exact hc)
            rw [(hk o ho).2, hoy] at this
            exact this)
          cases ho : on f with
          | true =>
            rw [ho, if_pos rfl] at hv
            rw [if_pos rfl, k2 f a (by rw [h.flags]; exact ho) ha]
            have hne : f ≠ y.flag := by intro e; subst e; rw [hoy] at ho; exact absurd ho (by simp)
            show _ = if y.covers a then g m a else m a
            rw [if_neg (by rw [covers_iff, hy]; exact not_cov_of_ne hU hne ha)]
            exact hv
          | false =>
            rw [ho] at hv
            simp only [Bool.false_eq_true, if_false] at hv ⊢
            rw [k1]
            show (if y.covers a then g s.host a else s.host a) = if y.covers a then g m a else m a
            split
            · exact hgl a ‹_›
            · exact hv
      · intro f a hon hdf ha
        have hy := (hk y List.mem_cons_self).1
        have hne : f ≠ y.flag := by
          intro e; subst e; rw [upd_self] at hdf; rw [hdf] at hon; exact absurd hon (by simp)
        rw [upd_ne _ hne] at hdf
        have hnc : ¬ y.covers a := by rw [covers_iff, hy]; exact not_cov_of_ne hU hne ha
        have hc := h.clean f a hon hdf ha
        show _ = if y.covers a then g m a else m a
        rw [if_neg hnc]
        cases hoy : on y.flag with
        | true => rw [(g3 (by rw [h.flags]; exact hoy)).1]; exact hc
        | false =>
          rw [(g4 (by rw [h.flags]; exact hoy)).1]
          simp only [if_neg hnc]
          exact hc
    | set o c v =>
      obtain ⟨hk, ho, hc, hp⟩ := hp
      have e1 : set s o c v = .ok { s with host := fun d => if d = c then v else s.host d } := by
        unfold set; rw [h.flags, ho]; rfl
      have e2 : set (cpu m) o c v = .ok (cpu fun d => if d = c then v else m d) := rfl
      rw [covers_iff, hk] at hc
      have hdm : ∀ f a, on f = true → cov (U f) a →
          devMem { s with host := fun d => if d = c then v else s.host d } a = devMem s a := by
        intro f a hf ha
        obtain ⟨q, ⟨f', h1, h2, h0⟩, p1, p2⟩ := on_of_cov (fl := s.flags) (by rw [h.flags]; exact hf) ha
        obtain ⟨r, hr, d1, d2⟩ := h.good.all q ⟨f', h1, h2, h0⟩ h0
        refine devMem_same (s := s) ?_ h.good.apart hr (a := a) (by omega) (by omega); rfl
      have hne : ∀ f a, on f = true → cov (U f) a → a ≠ c := by
        intro f a hf ha e
        subst e
        refine not_cov_of_ne hU (fun e => ?_) ha hc
        subst e; rw [ho] at hf; exact absurd hf (by simp)
      suffices hsim : Sim U on dirty { s with host := fun d => if d = c then v else s.host d } (fun d => if d = c then v else m d) by
        obtain ⟨s', m', on', dirty', r1, r2, r3⟩ := ih _ _ _ _ hsim hp
        refine ⟨s', m', on', dirty', ?_, ?_, r3⟩
        · show (set s o c v).bind (fun s => run true s p) = _
          rw [e1]; exact r1
        · show (set (cpu m) o c v).bind (fun s => run false s p) = _
          rw [e2]; exact r2
      refine ⟨h.good, h.flags, ?_, ?_⟩
      · intro f a ha
        have hv := h.val f a ha
        cases hof : on f with
        | true =>
          rw [hof, if_pos rfl] at hv
          rw [if_pos rfl, hdm f a hof ha, if_neg (hne f a hof ha)]; exact hv
        | false =>
          rw [hof] at hv
          simp only [Bool.false_eq_true, if_false] at hv ⊢
          split
          · rfl
          · exact hv
      · intro f a hon hdf ha
        show (if a = c then v else s.host a) = if a = c then v else m a
        rw [if_neg (hne f a hon ha), if_neg (hne f a hon ha)]
        exact h.clean f a hon hdf ha

theorem good_start (U : Nat → List (Nat × Nat)) (host : Nat → α) : Good U (start host) := by
  refine ⟨?_, ?_, List.Pairwise.nil⟩
  · intro r h; exact absurd h List.not_mem_nil
  · rintro p ⟨f, h, _⟩; exact absurd h (by simp [start])

/-- **C83.** Every portable program (any number of objects, any sequence of transfers, computing functions and
element accesses) that starts with everything on the host runs without failure in both builds, and afterwards
every object has the same value in the GPU build as in the CPU build, wherever it is. -/
theorem C83_portable (hU : Separate U) (host : Nat → α) (p : List (Op α))
    (hp : Portable U (fun _ => false) (fun _ => false) p) :
    ∃ s m, run true (start host) p = .ok s ∧ run false (start host) p = .ok m ∧
      ∀ o, Known U o → ∀ a, o.covers a → value s o a = m.host a := by
  obtain ⟨s, m, on, dirty, h1, h2, h3⟩ := sim_run hU p _ _ (start host) host
    ⟨good_start U host, rfl, fun _ _ _ => rfl,
      fun _ _ h => absurd h (by simp [start])⟩ hp
  refine ⟨s, cpu m, h1, h2, fun o hk a ha => ?_⟩
  have := h3.val o.flag a (by rw [covers_iff, hk] at ha; exact ha)
  unfold value
  rw [h3.flags]
  exact this

/-- **C83 (after receiving).** If moreover everything has been received at the end, the host memories agree. -/
theorem C83_received (hU : Separate U) (host : Nat → α) (p : List (Op α))
    (hp : Portable U (fun _ => false) (fun _ => false) p) (s : St α) (h : run true (start host) p = .ok s)
    (o : Obj) (hk : Known U o) (hoff : s.flags o.flag = false) :
    ∃ m, run false (start host) p = .ok m ∧ ∀ a, o.covers a → s.host a = m.host a := by
  obtain ⟨s', m, h1, h2, h3⟩ := C83_portable hU host p hp
  rw [h] at h1
  cases h1
  refine ⟨m, h2, fun a ha => ?_⟩
  have := h3 o hk a ha
  unfold value at this
  rw [hoff] at this
  exact this

/-- C84, one call: whatever is called on known objects, the flags stay right, and the call is not undefined -/
theorem step_good (hU : Separate U) {s : St α} (h : Good U s) (op : Op α) (hk : AllKnown U [op]) :
    (∃ t, step true s op = .ok t ∧ Good U t) ∨ (∃ m, step true s op = .throw m) ∨
      (∃ m, step true s op = .abort m) := by
  cases op with
  | send o =>
    obtain ⟨t, e, g, _⟩ := send_spec hU h hk.1
    exact Or.inl ⟨t, e, g⟩
  | recv o => exact Or.inl ⟨_, rfl, (recv_spec hU h hk.1).1⟩
  | nonfreeRecv o => exact Or.inl ⟨_, rfl, (nonfree_spec hU h hk.1).1⟩
  | deviceFree o => exact Or.inl ⟨_, rfl, (free_spec hU h hk.1).1⟩
  | compute y xs g =>
    by_cases hs : ∀ o ∈ y :: xs, s.flags o.flag = s.flags y.flag
    · obtain ⟨t, e, g, _⟩ := compute_spec (g := g) hU h hk.1 hs
      exact Or.inl ⟨t, e, g⟩
    · right; right
      refine ⟨"assert", ?_⟩
      have : (xs.all fun x => s.flags x.flag == s.flags y.flag) = false := by
        rw [Bool.eq_false_iff]
        intro hc
        rw [List.all_eq_true] at hc
        refine hs fun o ho => ?_
        rcases List.mem_cons.mp ho with rfl | ho
        · rfl
        · exact beq_iff_eq.mp (hc o ho)
      show compute s y xs g = _
      unfold compute
      rw [this]
      rfl
  | set o a v =>
    show (∃ t, set s o a v = .ok t ∧ Good U t) ∨ (∃ m, set s o a v = .throw m) ∨ (∃ m, set s o a v = .abort m)
    unfold set
    cases hf : s.flags o.flag with
    | true => exact Or.inr (Or.inl ⟨_, rfl⟩)
    | false => exact Or.inl ⟨_, rfl, h⟩

theorem run_good (hU : Separate U) : ∀ (p : List (Op α)) (s : St α), Good U s → AllKnown U p →
    (∃ t, run true s p = .ok t ∧ Good U t) ∨ (∃ m, run true s p = .throw m) ∨
      (∃ m, run true s p = .abort m) := by
  intro p
  induction p with
  | nil => intro s h _; exact Or.inl ⟨s, rfl, h⟩
  | cons op p ih =>
    intro s h hk
    have hk1 : AllKnown U [op] ∧ AllKnown U p := by
      cases op <;> exact ⟨⟨hk.1, trivial⟩, hk.2⟩
    rcases step_good hU h op hk1.1 with ⟨t, e, g⟩ | ⟨m, e⟩ | ⟨m, e⟩
    · have hr : run true s (op :: p) = (step true s op).bind (fun s => run true s p) := rfl
      have hr : run true s (op :: p) = run true t p := by rw [hr, e]; rfl
      rw [hr]
      exact ih t g hk1.2
    · right; left
      refine ⟨m, ?_⟩
      show (step true s op).bind (fun s => run true s p) = _
      rw [e]; rfl
    · right; right
      refine ⟨m, ?_⟩
      show (step true s op).bind (fun s => run true s p) = _
      rw [e]; rfl

/-- **C84.** Whatever program is run on whole, non-overlapping objects (portable or not), in a GPU build:
nothing is undefined (in particular no kernel meets an address that is not on the device), and whenever a state
is reached, an object's flag is set exactly if its sections are mapped. -/
theorem C84_flags (hU : Separate U) (host : Nat → α) (p : List (Op α)) (hk : AllKnown U p) :
    (∃ s, run true (start host) p = .ok s ∧
      ∀ o, Known U o → (∃ a, o.covers a) →
        (s.flags o.flag = true ↔ present s o = true) ∧
        (s.flags o.flag = false → ∀ r ∈ s.regions, ∀ a, o.covers a → ¬ (r.base ≤ a ∧ a < r.base + r.len))) ∨
    (∃ m, run true (start host) p = .throw m) ∨ (∃ m, run true (start host) p = .abort m) := by
  rcases run_good hU p (start host) (good_start U host) hk with
    ⟨s, e, g⟩ | h | h
  · refine Or.inl ⟨s, e, fun o hk ⟨a, ha⟩ => ?_⟩
    have hoff : s.flags o.flag = false → ∀ r ∈ s.regions, ∀ a, o.covers a →
        ¬ (r.base ≤ a ∧ a < r.base + r.len) := by
      rintro hf r hr a ha ⟨r1, r2⟩
      obtain ⟨⟨f, hfon, hfm, _⟩, _, _⟩ := g.only r hr
      have hne : f ≠ o.flag := by intro e; subst e; rw [hf] at hfon; exact absurd hfon (by simp)
      rw [covers_iff, hk] at ha
      exact not_cov_of_ne hU hne ⟨_, hfm, r1, r2⟩ ha
    refine ⟨⟨present_of hU g hk, fun hpres => ?_⟩, hoff⟩
    cases hf : s.flags o.flag with
    | true => rfl
    | false =>
      obtain ⟨bl, hbl, b1, b2⟩ := ha
      unfold present at hpres
      rw [List.all_eq_true] at hpres
      have := hpres bl hbl
      simp only [Bool.or_eq_true, beq_iff_eq, List.any_eq_true] at this
      rcases this with h0 | ⟨r, hr, hh⟩
      · omega
      · rw [has_iff] at hh
        exact absurd ⟨by omega, by omega⟩ (hoff hf r hr a ⟨bl, hbl, b1, b2⟩)
  · exact Or.inr (Or.inl h)
  · exact Or.inr (Or.inr h)

end Verif.Dev
