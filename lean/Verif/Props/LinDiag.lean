import Verif.Model.LinDiag
import Verif.Props.LinOpMM
import Mathlib.Algebra.Field.Rat
import Mathlib.Tactic.NormNum

/-!
# C41: `LinearOperator::diag`
-/

namespace Verif
namespace LinDiag

open Spec LinOp

variable {α : Type} [Field α]

open Classical in
/-- Invariant of the loop: `sc` is the scratch used by each thread, `m0` the memory at the start. -/
structure Inv (n cols : Nat) (sc : Nat → Nat) (M : Nat → Nat → α) (m0 : List α) (work : Nat → List Nat)
    (s : State α) : Prop where
  nodup : ∀ t, (s.thr t).todo.Nodup
  disj : ∀ t u i, t ≠ u → i ∈ (s.thr t).todo → i ∉ (s.thr u).todo
  sub : ∀ t i, i ∈ (s.thr t).todo → i ∈ work t ∧ i < n
  idleS : ∀ t, work t ≠ [] → (s.thr t).ph = .idle → s.scr (sc t) = List.replicate cols 0
  setS : ∀ t i, (s.thr t).ph = .set i → s.scr (sc t) = (List.replicate cols 0).set i 1 ∧
    ∃ l, (s.thr t).todo = i :: l
  gotS : ∀ t i v, (s.thr t).ph = .got i v → s.scr (sc t) = (List.replicate cols 0).set i 1 ∧
    (∃ l, (s.thr t).todo = i :: l) ∧ v = M i i
  stoS : ∀ t i, (s.thr t).ph = .stored i → s.scr (sc t) = (List.replicate cols 0).set i 1 ∧ i < n ∧ i ∈ work t
  len : s.mem.length = m0.length
  cell : ∀ j, s.mem[j]? = if j < n ∧ ∀ t, j ∉ (s.thr t).todo then some (M j j) else m0[j]?

theorem upd_self {β : Type} (f : Nat → β) (t : Nat) (b : β) : upd f t b t = b := by simp [upd]

theorem upd_ne {β : Type} (f : Nat → β) {t u : Nat} (b : β) (h : u ≠ t) : upd f t b u = f u := by
  simp [upd, h]

variable {n rows cols : Nat} {sc : Nat → Nat} {M : Nat → Nat → α} {m0 : List α} {work : Nat → List Nat}
  {mv : List α → Res (List α)} {s : State α}

open Classical in
theorem step_inv (hn : n = min rows cols)
    (hmv : ∀ x : List α, x.length = cols → mv x = .ok (image rows cols M x)) (hm : n ≤ m0.length)
    (hsc : ∀ t u, work t ≠ [] → work u ≠ [] → t ≠ u → sc t ≠ sc u) (h : Inv n cols sc M m0 work s) (t : Nat) :
    ∃ s', step mv sc s t = .ok s' ∧ Inv n cols sc M m0 work s' := by
  have hwork : ∀ u i, i ∈ (s.thr u).todo → work u ≠ [] := fun u i hi hw => by
    have := (h.sub u i hi).1; rw [hw] at this; exact absurd this (by simp)
  have hph : ∀ u, (s.thr u).ph ≠ .idle → work u ≠ [] := by
    intro u hu
    cases hc : (s.thr u).ph with
    | idle => exact absurd hc hu
    | set i => obtain ⟨-, l, hl⟩ := h.setS u i hc; exact hwork u i (by rw [hl]; simp)
    | got i v => obtain ⟨-, ⟨l, hl⟩, -⟩ := h.gotS u i v hc; exact hwork u i (by rw [hl]; simp)
    | stored i => intro hw; have := (h.stoS u i hc).2.2; rw [hw] at this; exact absurd this (by simp)
  have hother : ∀ u, u ≠ t → work t ≠ [] → work u ≠ [] → ∀ v, upd s.scr (sc t) v (sc u) = s.scr (sc u) :=
    fun u hu ht hw v => upd_ne _ _ (hsc u t hw ht hu)
  cases hc : (s.thr t).ph with
  | idle =>
    cases hl : (s.thr t).todo with
    | nil => exact ⟨s, by simp only [step, hc, hl], h⟩
    | cons i l =>
      have hi := h.sub t i (by rw [hl]; simp)
      have hw : work t ≠ [] := hwork t i (by rw [hl]; simp)
      have hs := h.idleS t hw hc
      refine ⟨{ s with scr := upd s.scr (sc t) ((List.replicate cols 0).set i 1)
                       thr := upd s.thr t { s.thr t with ph := .set i } }, ?_, ?_⟩
      · simp only [step, hc, hl, hs]
        rw [wr_ok (by simp; omega), Res.ok_bind]
      · have htodo : ∀ u, (upd s.thr t { s.thr t with ph := .set i } u).todo = (s.thr u).todo := by
          intro u
          by_cases hu : u = t
          · subst hu; rw [upd_self]
          · rw [upd_ne _ _ hu]
        constructor <;> simp only [htodo]
        · exact h.nodup
        · exact h.disj
        · exact h.sub
        · intro u hwu hu
          by_cases hut : u = t
          · subst hut; rw [upd_self] at hu; exact absurd hu (by simp)
          · rw [upd_ne _ _ hut] at hu; rw [hother u hut hw hwu]; exact h.idleS u hwu hu
        · intro u j hu
          by_cases hut : u = t
          · subst hut; rw [upd_self] at hu ⊢
            injection hu with hu; subst hu
            exact ⟨rfl, l, hl⟩
          · rw [upd_ne _ _ hut] at hu; rw [hother u hut hw (hph u (by rw [hu]; simp))]; exact h.setS u j hu
        · intro u j v hu
          by_cases hut : u = t
          · subst hut; rw [upd_self] at hu; exact absurd hu (by simp)
          · rw [upd_ne _ _ hut] at hu; rw [hother u hut hw (hph u (by rw [hu]; simp))]; exact h.gotS u j v hu
        · intro u j hu
          by_cases hut : u = t
          · subst hut; rw [upd_self] at hu; exact absurd hu (by simp)
          · rw [upd_ne _ _ hut] at hu; rw [hother u hut hw (hph u (by rw [hu]; simp))]; exact h.stoS u j hu
        · exact h.len
        · exact h.cell
  | set i =>
    obtain ⟨hs, l, hl⟩ := h.setS t i hc
    have hi := h.sub t i (by rw [hl]; simp)
    have hir : i < rows := by omega
    have hic : i < cols := by omega
    have hv : rd (image rows cols M ((List.replicate cols 0).set i 1)) i = .ok (M i i) := by
      have := image_unit rows cols M hic hir
      rw [rd_eq_ok]
      rw [List.getD_eq_getElem?_getD] at this
      rw [List.getElem?_eq_getElem (by rw [length_image]; exact hir)] at this ⊢
      simpa using this
    refine ⟨{ s with thr := upd s.thr t { s.thr t with ph := .got i (M i i) } }, ?_, ?_⟩
    · simp only [step, hc, hs]
      rw [hmv _ (by simp), Res.ok_bind, hv, Res.ok_bind]
    · have htodo : ∀ u, (upd s.thr t { s.thr t with ph := .got i (M i i) } u).todo = (s.thr u).todo := by
        intro u
        by_cases hu : u = t
        · subst hu; rw [upd_self]
        · rw [upd_ne _ _ hu]
      constructor <;> simp only [htodo]
      · exact h.nodup
      · exact h.disj
      · exact h.sub
      · intro u hwu hu
        by_cases hut : u = t
        · subst hut; rw [upd_self] at hu; exact absurd hu (by simp)
        · rw [upd_ne _ _ hut] at hu; exact h.idleS u hwu hu
      · intro u j hu
        by_cases hut : u = t
        · subst hut; rw [upd_self] at hu; exact absurd hu (by simp)
        · rw [upd_ne _ _ hut] at hu; exact h.setS u j hu
      · intro u j v hu
        by_cases hut : u = t
        · subst hut; rw [upd_self] at hu
          injection hu with h1 h2; subst h1; subst h2
          exact ⟨hs, ⟨l, hl⟩, rfl⟩
        · rw [upd_ne _ _ hut] at hu; exact h.gotS u j v hu
      · intro u j hu
        by_cases hut : u = t
        · subst hut; rw [upd_self] at hu; exact absurd hu (by simp)
        · rw [upd_ne _ _ hut] at hu; exact h.stoS u j hu
      · exact h.len
      · exact h.cell
  | got i v =>
    obtain ⟨hs, ⟨l, hl⟩, rfl⟩ := h.gotS t i v hc
    have hi := h.sub t i (by rw [hl]; simp)
    have hnd := h.nodup t
    rw [hl] at hnd
    have hnil : i ∉ l := (List.nodup_cons.mp hnd).1
    refine ⟨{ s with mem := s.mem.set i (M i i), thr := upd s.thr t { todo := l, ph := .stored i } }, ?_, ?_⟩
    · simp only [step, hc, hl, List.tail_cons]
      rw [wr_ok (by rw [h.len]; omega), Res.ok_bind]
    · have hts : ∀ u j, j ∈ (upd s.thr t { todo := l, ph := .stored i } u).todo → j ∈ (s.thr u).todo ∧
          (u = t → j ≠ i) := by
        intro u j hj
        by_cases hu : u = t
        · subst hu; rw [upd_self] at hj; rw [hl]
          exact ⟨by simp [show j ∈ l from hj], fun _ h => hnil (h ▸ hj)⟩
        · rw [upd_ne _ _ hu] at hj; exact ⟨hj, fun h => absurd h hu⟩
      constructor
      · intro u
        by_cases hu : u = t
        · subst hu; simp only [upd_self]; exact (List.nodup_cons.mp hnd).2
        · simp only [upd_ne _ _ hu]; exact h.nodup u
      · intro u w j huw hj hj'
        exact h.disj u w j huw (hts u j hj).1 (hts w j hj').1
      · intro u j hj
        exact h.sub u j (hts u j hj).1
      · intro u hwu hu
        by_cases hut : u = t
        · subst hut; simp only [upd_self] at hu; exact absurd hu (by simp)
        · simp only [upd_ne _ _ hut] at hu; exact h.idleS u hwu hu
      · intro u j hu
        by_cases hut : u = t
        · subst hut; simp only [upd_self] at hu; exact absurd hu (by simp)
        · simp only [upd_ne _ _ hut] at hu ⊢; exact h.setS u j hu
      · intro u j v hu
        by_cases hut : u = t
        · subst hut; simp only [upd_self] at hu; exact absurd hu (by simp)
        · simp only [upd_ne _ _ hut] at hu ⊢; exact h.gotS u j v hu
      · intro u j hu
        by_cases hut : u = t
        · subst hut; simp only [upd_self] at hu; injection hu with hu; subst hu
          exact ⟨hs, hi.2, hi.1⟩
        · simp only [upd_ne _ _ hut] at hu; exact h.stoS u j hu
      · simp [h.len]
      · intro j
        by_cases hj : j = i
        · subst hj
          have hno : ∀ u, j ∉ (upd s.thr t { todo := l, ph := .stored j } u).todo := by
            intro u hju
            obtain ⟨h1, h2⟩ := hts u j hju
            by_cases hu : u = t
            · exact h2 hu rfl
            · exact h.disj u t j hu h1 (by rw [hl]; simp)
          simp only
          rw [if_pos ⟨hi.2, hno⟩, List.getElem?_set_self (by rw [h.len]; omega)]
        · simp only
          rw [List.getElem?_set_ne (Ne.symm hj), h.cell j]
          have : (∀ u, j ∉ (s.thr u).todo) ↔
              (∀ u, j ∉ (upd s.thr t { todo := l, ph := .stored i } u).todo) := by
            constructor
            · intro hh u hju; exact hh u (hts u j hju).1
            · intro hh u hju
              apply hh u
              by_cases hu : u = t
              · subst hu; rw [upd_self]; rw [hl] at hju
                exact (List.mem_cons.mp hju).resolve_left hj
              · rw [upd_ne _ _ hu]; exact hju
          rw [this]
  | stored i =>
    obtain ⟨hs, hi, hiw⟩ := h.stoS t i hc
    have hw : work t ≠ [] := hph t (by rw [hc]; simp)
    refine ⟨{ s with scr := upd s.scr (sc t) (List.replicate cols 0)
                     thr := upd s.thr t { s.thr t with ph := .idle } }, ?_, ?_⟩
    · simp only [step, hc, hs]
      rw [wr_ok (by simp; omega), Res.ok_bind]
      have : ((List.replicate cols (0 : α)).set i 1).set i 0 = List.replicate cols 0 := by
        rw [List.set_set]
        apply List.ext_getElem?
        intro j
        by_cases hj : i = j
        · subst hj
          by_cases h' : i < cols
          · simp [h']
          · simp [h']
        · rw [List.getElem?_set_ne hj]
      rw [this]
    · have htodo : ∀ u, (upd s.thr t { s.thr t with ph := .idle } u).todo = (s.thr u).todo := by
        intro u
        by_cases hu : u = t
        · subst hu; rw [upd_self]
        · rw [upd_ne _ _ hu]
      constructor <;> simp only [htodo]
      · exact h.nodup
      · exact h.disj
      · exact h.sub
      · intro u hwu hu
        by_cases hut : u = t
        · subst hut; rw [upd_self]
        · rw [upd_ne _ _ hut] at hu; rw [hother u hut hw hwu]; exact h.idleS u hwu hu
      · intro u j hu
        by_cases hut : u = t
        · subst hut; rw [upd_self] at hu; exact absurd hu (by simp)
        · rw [upd_ne _ _ hut] at hu; rw [hother u hut hw (hph u (by rw [hu]; simp))]; exact h.setS u j hu
      · intro u j v hu
        by_cases hut : u = t
        · subst hut; rw [upd_self] at hu; exact absurd hu (by simp)
        · rw [upd_ne _ _ hut] at hu; rw [hother u hut hw (hph u (by rw [hu]; simp))]; exact h.gotS u j v hu
      · intro u j hu
        by_cases hut : u = t
        · subst hut; rw [upd_self] at hu; exact absurd hu (by simp)
        · rw [upd_ne _ _ hut] at hu; rw [hother u hut hw (hph u (by rw [hu]; simp))]; exact h.stoS u j hu
      · exact h.len
      · exact h.cell

theorem run_inv (hn : n = min rows cols)
    (hmv : ∀ x : List α, x.length = cols → mv x = .ok (image rows cols M x)) (hm : n ≤ m0.length)
    (hsc : ∀ t u, work t ≠ [] → work u ≠ [] → t ≠ u → sc t ≠ sc u) (sched : List Nat)
    (h : Inv n cols sc M m0 work s) :
    ∃ s', run mv sc sched s = .ok s' ∧ Inv n cols sc M m0 work s' := by
  induction sched generalizing s with
  | nil => exact ⟨s, rfl, h⟩
  | cons t ts ih =>
    obtain ⟨s1, h1, h2⟩ := step_inv hn hmv hm hsc h t
    obtain ⟨s2, h3, h4⟩ := ih h2
    exact ⟨s2, by simp only [run, h1, Res.ok_bind, h3], h4⟩

/-! ## Every schedule that lets each thread move often enough finishes -/

/-- Steps a thread still needs. -/
def need (th : Thread α) : Nat :=
  match th.ph with
  | .idle => 4 * th.todo.length
  | .set _ => 4 * th.todo.length - 1
  | .got _ _ => 4 * th.todo.length - 2
  | .stored _ => 4 * th.todo.length + 1

theorem step_need {s' : State α} (h : Inv n cols sc M m0 work s) {t : Nat} (hs : step mv sc s t = .ok s')
    (u : Nat) : need (s'.thr u) = need (s.thr u) - (if u = t then 1 else 0) := by
  unfold step at hs
  simp only at hs
  cases hc : (s.thr t).ph with
  | idle =>
    simp only [hc] at hs
    cases hl : (s.thr t).todo with
    | nil =>
      simp only [hl] at hs
      injection hs with hs; subst hs
      by_cases hu : u = t
      · subst hu; simp [need, hc, hl]
      · simp [hu]
    | cons i l =>
      simp only [hl] at hs
      obtain ⟨v, -, hs⟩ := Res.bind_eq_ok.mp hs
      injection hs with hs; subst hs
      by_cases hu : u = t
      · subst hu; simp [need, hc, hl, upd_self]
      · simp [hu, upd_ne]
  | set i =>
    simp only [hc] at hs
    obtain ⟨y, -, hs⟩ := Res.bind_eq_ok.mp hs
    obtain ⟨v, -, hs⟩ := Res.bind_eq_ok.mp hs
    injection hs with hs; subst hs
    by_cases hu : u = t
    · subst hu; simp [need, hc, upd_self]; omega
    · simp [hu, upd_ne]
  | got i v =>
    simp only [hc] at hs
    obtain ⟨y, -, hs⟩ := Res.bind_eq_ok.mp hs
    injection hs with hs; subst hs
    obtain ⟨-, ⟨l, hl⟩, -⟩ := h.gotS t i v hc
    by_cases hu : u = t
    · subst hu; simp [need, hc, upd_self, hl]; omega
    · simp [hu, upd_ne]
  | stored i =>
    simp only [hc] at hs
    obtain ⟨y, -, hs⟩ := Res.bind_eq_ok.mp hs
    injection hs with hs; subst hs
    by_cases hu : u = t
    · subst hu; simp [need, hc, upd_self]
    · simp [hu, upd_ne]

theorem run_need (hn : n = min rows cols)
    (hmv : ∀ x : List α, x.length = cols → mv x = .ok (image rows cols M x)) (hm : n ≤ m0.length)
    (hsc : ∀ t u, work t ≠ [] → work u ≠ [] → t ≠ u → sc t ≠ sc u) (sched : List Nat)
    (h : Inv n cols sc M m0 work s) {s' : State α} (hs : run mv sc sched s = .ok s') (u : Nat) :
    need (s'.thr u) = need (s.thr u) - sched.count u := by
  induction sched generalizing s with
  | nil => injection hs with hs; subst hs; simp
  | cons t ts ih =>
    obtain ⟨s1, h1, h2⟩ := step_inv hn hmv hm hsc h t
    simp only [run, h1, Res.ok_bind] at hs
    rw [ih h2 hs, step_need h h1 u, List.count_cons]
    by_cases hu : u = t
    · subst hu; simp; omega
    · simp [hu, Ne.symm hu]

theorem finished_of_need (h : Inv n cols sc M m0 work s) (hz : ∀ t, need (s.thr t) = 0) : Finished s := by
  intro t
  have := hz t
  unfold need at this
  cases hc : (s.thr t).ph with
  | idle => simp only [hc] at this; exact ⟨List.length_eq_zero_iff.mp (by omega), rfl⟩
  | set i => obtain ⟨-, l, hl⟩ := h.setS t i hc; simp only [hc, hl, List.length_cons] at this; omega
  | got i v => obtain ⟨-, ⟨l, hl⟩, -⟩ := h.gotS t i v hc; simp only [hc, hl, List.length_cons] at this; omega
  | stored i => simp only [hc] at this; omega

theorem start_inv (hw : Shares n work) : Inv n cols sc M m0 work (start cols m0 work) where
  nodup := hw.nodup
  disj := hw.disj
  sub := fun t i hi => ⟨hi, (hw.mem i).mpr ⟨t, hi⟩⟩
  idleS := fun _ _ _ => rfl
  setS := fun _ _ h => nomatch h
  gotS := fun _ _ _ h => nomatch h
  stoS := fun _ _ h => nomatch h
  len := rfl
  cell := fun j => by
    have : ¬ (j < n ∧ ∀ t, j ∉ work t) := fun ⟨h1, h2⟩ => by
      obtain ⟨t, ht⟩ := (hw.mem j).mp h1
      exact h2 t ht
    exact (if_neg this).symm

theorem diag_core (hn : n = min rows cols)
    (hmv : ∀ x : List α, x.length = cols → mv x = .ok (image rows cols M x)) (hm : n ≤ m0.length)
    (hw : Shares n work) (hsc : ∀ t u, work t ≠ [] → work u ≠ [] → t ≠ u → sc t ≠ sc u) (sched : List Nat) :
    ∃ s, run mv sc sched (start cols m0 work) = .ok s ∧
      ((∀ t, 4 * (work t).length ≤ sched.count t) → Finished s) ∧
      (Finished s → s.mem.length = m0.length ∧
        ∀ j, s.mem[j]? = if j < n then some (M j j) else m0[j]?) := by
  have h0 : Inv n cols sc M m0 work (start cols m0 work) := start_inv hw
  obtain ⟨s, h1, h2⟩ := run_inv hn hmv hm hsc sched h0
  refine ⟨s, h1, fun hcount => finished_of_need h2 (fun t => ?_), fun hf => ⟨h2.len, fun j => ?_⟩⟩
  · rw [run_need hn hmv hm hsc sched h0 h1 t]
    have := hcount t
    simp only [start, need]
    omega
  · rw [h2.cell j]
    have : (j < n ∧ ∀ t, j ∉ (s.thr t).todo) ↔ j < n :=
      ⟨fun h => h.1, fun h => ⟨h, fun t => by rw [(hf t).1]; simp⟩⟩
    simp only [this]

/-! ## The property -/

/-- **C41 (vectors).** For every operator acting as the matrix `M`, every number of threads, every distribution
of the iterations and every interleaving, `A.diag(v)` reads and writes in bounds; once every thread has been
scheduled for four steps per iteration it has finished, and then `v` holds the diagonal of `M` and nothing else
was written. -/
theorem C41_vector (hmv : ∀ x : List α, x.length = cols → mv x = .ok (image rows cols M x)) (v : List α)
    (hv : v.length = min rows cols) (hw : Shares (min rows cols) work) (sched : List Nat) :
    ∃ s, diagVector rows cols mv v v.length work sched = .ok s ∧
      ((∀ t, 4 * (work t).length ≤ sched.count t) → Finished s) ∧
      (Finished s → s.mem = (List.range (min rows cols)).map (fun i => M i i)) := by
  obtain ⟨s, h1, h2, h3⟩ := diag_core (sc := id) (m0 := v) rfl hmv (by omega) hw (fun t u _ _ h => h) sched
  refine ⟨s, by unfold diagVector; rw [cassert_decide hv.symm, Res.ok_bind, h1], h2, fun hf => ?_⟩
  obtain ⟨h4, h5⟩ := h3 hf
  apply List.ext_getElem?
  intro j
  rw [h5 j]
  by_cases hj : j < min rows cols
  · rw [if_pos hj]
    simp [hj]
  · rw [if_neg hj, List.getElem?_eq_none (by omega), List.getElem?_eq_none (by simp; omega)]

/-- **C41 (size).** A result vector of the wrong size is rejected. -/
theorem C41_reject (v : List α) (hv : v.length ≠ min rows cols) (sched : List Nat) :
    ∃ e, diagVector rows cols mv v v.length work sched = .abort e ∧
      diagView rows cols mv v v.length work sched = .abort e := by
  unfold diagVector diagView
  simp [cassert, Ne.symm hv]

/-- **C62 (views, one thread).** The overloads for views are correct if a single thread executes the loop and
the view starts at the beginning of its target. -/
theorem C62_view_partial (hmv : ∀ x : List α, x.length = cols → mv x = .ok (image rows cols M x)) (mem : List α)
    (hv : min rows cols ≤ mem.length) (t0 : Nat) (hw : Shares (min rows cols) work)
    (hone : ∀ t, t ≠ t0 → work t = []) (sched : List Nat) :
    ∃ s, diagView rows cols mv mem (min rows cols) work sched = .ok s ∧
      ((∀ t, 4 * (work t).length ≤ sched.count t) → Finished s) ∧
      (Finished s → ∀ j, s.mem[j]? = if j < min rows cols then some (M j j) else mem[j]?) := by
  obtain ⟨s, h1, h2, h3⟩ := diag_core (sc := fun _ => 0) rfl hmv hv hw (fun t u ht hu h => by
    by_cases e : t = t0
    · subst e; exact absurd (hone u (Ne.symm h)) hu
    · exact absurd (hone t e) ht) sched
  exact ⟨s, by unfold diagView; rw [cassert_decide rfl, Res.ok_bind, h1], h2, fun hf => (h3 hf).2⟩

/-- **C62 is violated (views, offset).** A view that starts at `first > 0` is not filled: the diagonal goes to
the beginning of the target, even with one thread.  The last element of the view keeps its old value. -/
theorem C62_view_offset_violated (hmv : ∀ x : List α, x.length = cols → mv x = .ok (image rows cols M x))
    (mem : List α) (first : Nat) (hf : 0 < first) (hv : first + min rows cols ≤ mem.length)
    (hpos : 0 < min rows cols) (t0 : Nat) (hw : Shares (min rows cols) work)
    (hone : ∀ t, t ≠ t0 → work t = []) (sched : List Nat) :
    ∃ s, diagView rows cols mv mem (min rows cols) work sched = .ok s ∧
      (Finished s → s.mem[first + (min rows cols - 1)]? = mem[first + (min rows cols - 1)]? ∧
        s.mem[0]? = some (M 0 0)) := by
  obtain ⟨s, h1, -, h3⟩ := C62_view_partial hmv mem (by omega) t0 hw hone sched
  refine ⟨s, h1, fun hfin => ⟨?_, ?_⟩⟩
  · rw [h3 hfin, if_neg (by omega)]
  · rw [h3 hfin, if_pos hpos]

/-- The distribution of two iterations to two threads. -/
theorem shares_two : Shares 2 (fun t => if t = 0 then [0] else if t = 1 then [1] else []) where
  nodup := fun t => by by_cases h : t = 0 <;> by_cases h' : t = 1 <;> simp [h, h']
  disj := fun t u i htu h1 h2 => by
    split_ifs at h1 h2 <;> simp_all
  mem := fun i => by
    constructor
    · intro h
      have : i = 0 ∨ i = 1 := by omega
      rcases this with rfl | rfl
      · exact ⟨0, by simp⟩
      · exact ⟨1, by simp⟩
    · rintro ⟨t, ht⟩
      split_ifs at ht <;> simp_all

/-- **C62 is violated (views, race).** With two threads the overloads for views share their scratch vector: for
every 2×2 operator there is a schedule that finishes with `M(0,0) + M(0,1)` instead of `M(0,0)`. -/
theorem C62_view_race_violated (M : Nat → Nat → α) (mv : List α → Res (List α))
    (hmv : ∀ x : List α, x.length = 2 → mv x = .ok (image 2 2 M x)) (a b : α) :
    ∃ work, Shares 2 work ∧ ∃ sched s, diagView 2 2 mv [a, b] 2 work sched = .ok s ∧ Finished s ∧
      s.mem = [M 0 0 + M 0 1, M 1 1] := by
  have e1 : mv [1, 1] = .ok (image 2 2 M [1, 1]) := hmv _ rfl
  have e2 : mv [0, 1] = .ok (image 2 2 M [0, 1]) := hmv _ rfl
  have i1 : image 2 2 M [1, 1] = [M 0 0 + M 0 1, M 1 0 + M 1 1] := by
    simp [image, mulVec, List.range_succ, Finset.sum_range_succ]
  have i2 : image 2 2 M [0, 1] = [M 0 1, M 1 1] := by
    simp [image, mulVec, List.range_succ, Finset.sum_range_succ]
  rw [i1] at e1
  rw [i2] at e2
  refine ⟨_, shares_two, [0, 1, 0, 0, 0, 1, 1, 1], ?_⟩
  simp [diagView, cassert, run, start, step, upd, wr, rd, List.replicate, e1, e2, Finished]
  intro t
  by_cases h0 : t = 0 <;> by_cases h1 : t = 1 <;> simp [h0, h1]

/-- The hypotheses of `C41_vector` hold for a 2×3 operator and two threads; the race gives 3 instead of 1. -/
example : ∃ (mv : List ℚ → Res (List ℚ)) (M : Nat → Nat → ℚ) (work : Nat → List Nat),
    (∀ x : List ℚ, x.length = 3 → mv x = .ok (image 2 3 M x)) ∧ M 0 0 = 1 ∧ M 1 1 = 5 ∧
    Shares (min 2 3) work ∧ (∀ t, 4 * (work t).length ≤ [0, 1, 1, 0, 0, 1, 0, 1].count t) :=
  ⟨fun x => .ok (image 2 3 (fun i j => 3 * i + j + 1) x), fun i j => 3 * i + j + 1, _, fun _ _ => rfl,
    by norm_num, by norm_num, shares_two, fun t => by
      by_cases h0 : t = 0 <;> by_cases h1 : t = 1 <;> simp [h0, h1]⟩

end LinDiag
end Verif
