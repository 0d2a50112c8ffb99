import Verif.Model.Conc

/-!
Data-race-free parallel loops: every schedule computes the same result.
-/

namespace Verif.Conc

variable {α : Type}

/-- no iteration stores to an address another iteration loads from or stores to; all accesses in
bounds -/
structure RaceFree (L : Loop α) (m : List α) : Prop where
  src_lt : ∀ i, i < L.N → ∀ a ∈ L.srcs i, a < m.length
  dst_lt : ∀ i, i < L.N → L.dst i < m.length
  dst_inj : ∀ i j, i < L.N → j < L.N → L.dst i = L.dst j → i = j
  no_conflict : ∀ i j, i < L.N → j < L.N → i ≠ j → L.dst i ∉ L.srcs j

/-- registers `r` hold the initial contents of the first `n` sources of iteration `i` -/
def Loaded (L : Loop α) (m : List α) (i n : Nat) (r : Nat → α) : Prop :=
  ∀ k a, k < n → (L.srcs i)[k]? = some a → m[a]? = some (r k)

structure Inv (L : Loop α) (m : List α) (s : State α) : Prop where
  len : s.mem.length = m.length
  pc_le : ∀ i, i < L.N → (s.its i).pc ≤ (L.srcs i).length
  loaded : ∀ i, i < L.N → Loaded L m i (s.its i).pc (s.its i).reg
  finished : ∀ i, i < L.N → (s.its i).done = true →
    ∃ r, Loaded L m i (L.srcs i).length r ∧ s.mem[L.dst i]? = some (L.f i r)
  frame : ∀ a, (∀ i, i < L.N → (s.its i).done = true → L.dst i ≠ a) → s.mem[a]? = m[a]?

theorem Inv.start (L : Loop α) (m : List α) (g : Nat → Nat → α) : Inv L m (start m g) where
  len := rfl
  pc_le := fun _ _ => Nat.zero_le _
  loaded := fun i _ k a hk => absurd hk (Nat.not_lt_zero _)
  finished := fun i _ h => by simp [Conc.start] at h
  frame := fun _ _ => rfl

theorem State.setIt_same (s : State α) (i : Nat) (t : It α) : (s.setIt i t).its i = t := by
  simp [State.setIt]

theorem State.setIt_other (s : State α) {i j : Nat} (t : It α) (h : j ≠ i) :
    (s.setIt i t).its j = s.its j := by simp [State.setIt, h]

theorem Inv.step {L : Loop α} {m : List α} (hL : RaceFree L m) {s : State α} (h : Inv L m s)
    (i : Nat) : ∃ s', step L s i = .ok s' ∧ Inv L m s' := by
  unfold Conc.step
  by_cases h0 : L.N ≤ i ∨ (s.its i).done = true
  · simp only [h0, if_true]
    exact ⟨s, rfl, h⟩
  · simp only [h0, if_false]
    have hi : i < L.N := by
      apply Nat.lt_of_not_le; exact fun hc => h0 (Or.inl hc)
    have hnd : ¬ (s.its i).done = true := fun hc => h0 (Or.inr hc)
    cases ha : (L.srcs i)[(s.its i).pc]? with
    | some a =>
      simp only
      have hmem : a ∈ L.srcs i := List.mem_of_getElem? ha
      have hpc : (s.its i).pc < (L.srcs i).length := (List.getElem?_eq_some_iff.mp ha).1
      have halt := hL.src_lt i hi a hmem
      -- the address still holds its initial value
      have hval : s.mem[a]? = m[a]? := by
        apply h.frame
        intro j hj hdone heq
        by_cases hji : j = i
        · subst hji; exact hnd hdone
        · exact hL.no_conflict j i hj hi hji (heq ▸ hmem)
      have hrd : rd s.mem a = .ok m[a] := rd_of_getElem? (by
        rw [hval, List.getElem?_eq_getElem halt])
      rw [hrd, Res.ok_bind]
      refine ⟨_, rfl, ⟨h.len, ?_, ?_, ?_, ?_⟩⟩
      · intro j hj
        by_cases hji : j = i
        · subst hji; rw [State.setIt_same]; simp only; omega
        · rw [State.setIt_other _ _ hji]; exact h.pc_le j hj
      · intro j hj
        by_cases hji : j = i
        · subst hji; rw [State.setIt_same]
          intro k b hk hb
          simp only at hk ⊢
          by_cases hkp : k = (s.its j).pc
          · subst hkp
            rw [ha] at hb; injection hb with hb; subst hb
            simp only [if_true]
            exact List.getElem?_eq_getElem halt
          · simp only [hkp, if_false]
            exact h.loaded j hj k b (by omega) hb
        · rw [State.setIt_other _ _ hji]; exact h.loaded j hj
      · intro j hj hdone
        by_cases hji : j = i
        · subst hji; rw [State.setIt_same] at hdone; exact absurd hdone hnd
        · rw [State.setIt_other _ _ hji] at hdone; exact h.finished j hj hdone
      · intro b hb
        apply h.frame
        intro j hj hdone
        by_cases hji : j = i
        · subst hji; exact absurd hdone hnd
        · exact hb j hj (by rw [State.setIt_other _ _ hji]; exact hdone)
    | none =>
      simp only
      have hpc : (L.srcs i).length ≤ (s.its i).pc := List.getElem?_eq_none_iff.mp ha
      have hpc' : (s.its i).pc = (L.srcs i).length := Nat.le_antisymm (h.pc_le i hi) hpc
      have hdl : L.dst i < s.mem.length := by rw [h.len]; exact hL.dst_lt i hi
      rw [wr_ok hdl, Res.ok_bind]
      refine ⟨_, rfl, ⟨by simpa [State.setIt] using h.len, ?_, ?_, ?_, ?_⟩⟩
      · intro j hj
        by_cases hji : j = i
        · subst hji; rw [State.setIt_same]; exact h.pc_le j hj
        · rw [State.setIt_other _ _ hji]; exact h.pc_le j hj
      · intro j hj
        by_cases hji : j = i
        · subst hji; rw [State.setIt_same]; exact h.loaded j hj
        · rw [State.setIt_other _ _ hji]; exact h.loaded j hj
      · intro j hj hdone
        by_cases hji : j = i
        · subst hji
          refine ⟨(s.its j).reg, ?_, ?_⟩
          · have := h.loaded j hj; rwa [hpc'] at this
          · simp [State.setIt, hdl]
        · rw [State.setIt_other _ _ hji] at hdone
          obtain ⟨r, hr, hv⟩ := h.finished j hj hdone
          refine ⟨r, hr, ?_⟩
          simp only [State.setIt]
          rw [List.getElem?_set, if_neg]
          · exact hv
          · intro hc; exact hji (hL.dst_inj i j hi hj hc).symm
      · intro b hb
        simp only [State.setIt]
        have hne : L.dst i ≠ b := hb i hi (by rw [State.setIt_same])
        rw [List.getElem?_set, if_neg hne]
        apply h.frame
        intro j hj hdone
        by_cases hji : j = i
        · subst hji; exact hne
        · exact hb j hj (by rw [State.setIt_other _ _ hji]; exact hdone)

theorem Inv.run {L : Loop α} {m : List α} (hL : RaceFree L m) (sched : List Nat) :
    ∀ {s : State α}, Inv L m s → ∃ s', run L sched s = .ok s' ∧ Inv L m s' := by
  induction sched with
  | nil => intro s h; exact ⟨s, rfl, h⟩
  | cons i is ih =>
    intro s h
    obtain ⟨s1, h1, h1'⟩ := h.step hL i
    obtain ⟨s2, h2, h2'⟩ := ih h1'
    refine ⟨s2, ?_, h2'⟩
    unfold Conc.run
    rw [h1, Res.ok_bind, h2]

/-- every step of an unfinished iteration makes progress -/
theorem step_progress {L : Loop α} {s s' : State α} {i j : Nat} (hj : j < L.N)
    (h : step L s i = .ok s') :
    ((s'.its j).done = true) ∨
      ((s.its j).done = false ∧ (s'.its j).pc = (s.its j).pc + (if i = j then 1 else 0) ∧
        ((s.its j).pc ≤ (L.srcs j).length → (s'.its j).pc ≤ (L.srcs j).length)) := by
  unfold Conc.step at h
  by_cases hdj : (s.its j).done = true
  · left
    simp only at h
    split at h
    · injection h with h; subst h; exact hdj
    · rename_i h0
      have hij : j ≠ i := by
        intro hc; subst hc; exact h0 (Or.inr hdj)
      split at h
      · rw [Res.bind_eq_ok] at h; obtain ⟨v, _, h⟩ := h
        injection h with h; subst h
        rw [State.setIt_other _ _ hij]; exact hdj
      · rw [Res.bind_eq_ok] at h; obtain ⟨v, _, h⟩ := h
        injection h with h; subst h
        rw [State.setIt_other _ _ hij]; exact hdj
  · have hdj' : (s.its j).done = false := by simpa using hdj
    simp only at h
    split at h
    · rename_i h0
      injection h with h; subst h
      right
      have hij : i ≠ j := by
        intro hc; subst hc
        rcases h0 with h0 | h0
        · omega
        · exact hdj h0
      simp [hdj', hij]
    · split at h
      · rename_i a ha
        rw [Res.bind_eq_ok] at h; obtain ⟨v, _, h⟩ := h
        injection h with h; subst h
        right
        by_cases hij : i = j
        · subst hij
          rw [State.setIt_same]
          have := (List.getElem?_eq_some_iff.mp ha).1
          simp [hdj']; omega
        · rw [State.setIt_other _ _ (Ne.symm hij)]; simp [hdj', hij]
      · rw [Res.bind_eq_ok] at h; obtain ⟨v, _, h⟩ := h
        injection h with h; subst h
        by_cases hij : i = j
        · subst hij; left; rw [State.setIt_same]
        · right; rw [State.setIt_other _ _ (Ne.symm hij)]; simp [hdj', hij]

theorem run_progress {L : Loop α} (sched : List Nat) {j : Nat} (hj : j < L.N) :
    ∀ {s s' : State α}, run L sched s = .ok s' →
      ((s.its j).done = true ∨ (s.its j).pc ≤ (L.srcs j).length) →
      (s'.its j).done = true ∨
        ((s.its j).pc + sched.count j ≤ (s'.its j).pc ∧ (s'.its j).pc ≤ (L.srcs j).length) := by
  induction sched with
  | nil =>
    intro s s' h hp
    injection h with h; subst h
    rcases hp with hp | hp
    · exact Or.inl hp
    · right; simp; exact hp
  | cons i is ih =>
    intro s s' h hp
    unfold Conc.run at h
    rw [Res.bind_eq_ok] at h
    obtain ⟨s1, h1, h2⟩ := h
    rcases step_progress hj h1 with hd | ⟨hd, hpc, hle⟩
    · rcases ih h2 (Or.inl hd) with q | q
      · exact Or.inl q
      · -- a finished iteration stays finished
        left
        clear ih h1 hp q
        induction is generalizing s1 with
        | nil => injection h2 with h2; subst h2; exact hd
        | cons i' is ih2 =>
          unfold Conc.run at h2
          rw [Res.bind_eq_ok] at h2
          obtain ⟨s2, h3, h4⟩ := h2
          rcases step_progress hj h3 with hd' | ⟨hd', _, _⟩
          · exact ih2 s2 h4 hd'
          · rw [hd] at hd'; cases hd'
    · have hp' : (s.its j).pc ≤ (L.srcs j).length := by
        rcases hp with hp | hp
        · rw [hd] at hp; cases hp
        · exact hp
      rcases ih h2 (Or.inr (hle hp')) with q | ⟨q1, q2⟩
      · exact Or.inl q
      · right
        refine ⟨?_, q2⟩
        rw [List.count_cons]
        rw [hpc] at q1
        by_cases hij : i = j
        · subst hij; simp at q1 ⊢; omega
        · simp [hij] at q1 ⊢; omega

/-- **Data-race-free loops are schedule independent.** Every schedule runs without fault; a schedule
that gives each iteration enough turns finishes; and whenever the loop has finished, every destination
holds the function of the *initial* source values, and no other address has changed. -/
theorem raceFree_run {L : Loop α} {m : List α} (hL : RaceFree L m) (sched : List Nat)
    (g : Nat → Nat → α) :
    ∃ s, run L sched (start m g) = .ok s ∧
      ((∀ i, i < L.N → (L.srcs i).length < sched.count i) → Finished L s) ∧
      (Finished L s → s.mem.length = m.length ∧
        (∀ i, i < L.N → ∃ r, Loaded L m i (L.srcs i).length r ∧ s.mem[L.dst i]? = some (L.f i r)) ∧
        (∀ a, (∀ i, i < L.N → L.dst i ≠ a) → s.mem[a]? = m[a]?)) := by
  obtain ⟨s, hs, hI⟩ := Inv.run hL sched (Inv.start L m g)
  refine ⟨s, hs, ?_, ?_⟩
  · intro hc i hi
    rcases run_progress sched hi hs (Or.inr (Nat.zero_le _)) with h | ⟨h1, h2⟩
    · exact h
    · have := hc i hi; omega
  · intro hF
    refine ⟨hI.len, fun i hi => hI.finished i hi (hF i hi), ?_⟩
    intro a ha
    exact hI.frame a (fun i hi _ => ha i hi)

end Verif.Conc
