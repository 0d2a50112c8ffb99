import Verif.Model.LogRace
import Verif.Spec.LoggerSpec
import Mathlib.Tactic.Common

/-!
C106: logging and threads.
-/

namespace Verif
namespace LogRace

open Log

/-! ### One thread at a time -/

/-- the steps of one thread without interruption -/
def seqExec : List Micro → Sizes → Nat → Res (Sizes × Nat)
  | [], z, r => .ok (z, r)
  | m :: ms, z, r => do
    let (z, r) ← exec m z r
    seqExec ms z r

theorem seqExec_append (a b : List Micro) : ∀ (z : Sizes) (r : Nat) {z' : Sizes} {r' : Nat},
    seqExec a z r = .ok (z', r') → seqExec (a ++ b) z r = seqExec b z' r' := by
  induction a with
  | nil =>
    intro z r z' r' h
    cases h
    rfl
  | cons m a ih =>
    intro z r z' r' h
    obtain ⟨⟨z1, r1⟩, h1, h⟩ := Res.bind_eq_ok.mp h
    show (exec m z r >>= fun x => seqExec (a ++ b) x.1 x.2) = _
    rw [h1]
    exact ih z1 r1 h

theorem run_append (a b : List Nat) : ∀ (s : State) {s' : State}, run a s = .ok s' → run (a ++ b) s = run b s' := by
  induction a with
  | nil =>
    intro s s' h
    cases h
    rfl
  | cons t a ih =>
    intro s s' h
    obtain ⟨s1, h1, h⟩ := Res.bind_eq_ok.mp h
    show (step t s >>= fun x => run (a ++ b) x) = _
    rw [h1]
    exact ih s1 h

theorem run_thread (t : Nat) (ms rest : List Micro) : ∀ (s : State) {z : Sizes} {r : Nat}, s.prog t = ms ++ rest →
    seqExec ms s.sizes (s.reg t) = .ok (z, r) →
    ∃ reg, run (List.replicate ms.length t) s = .ok ⟨z, reg, Function.update s.prog t rest⟩ := by
  induction ms with
  | nil =>
    intro s z r hp h
    cases h
    refine ⟨s.reg, ?_⟩
    have : Function.update s.prog t rest = s.prog := by
      rw [show rest = s.prog t from hp.symm]
      exact Function.update_eq_self t s.prog
    rw [this]
    rfl
  | cons m ms ih =>
    intro s z r hp h
    obtain ⟨⟨z1, r1⟩, h1, h⟩ := Res.bind_eq_ok.mp h
    have hs : step t s = .ok ⟨z1, Function.update s.reg t r1, Function.update s.prog t (ms ++ rest)⟩ := by
      unfold step
      rw [hp]
      show (exec m s.sizes (s.reg t) >>= _) = _
      rw [h1]
      rfl
    obtain ⟨reg, h2⟩ := ih ⟨z1, Function.update s.reg t r1, Function.update s.prog t (ms ++ rest)⟩ (z := z) (r := r)
      (by simp) (by simpa using h)
    refine ⟨reg, ?_⟩
    show (step t s >>= fun x => run (List.replicate ms.length t) x) = _
    rw [hs]
    show run _ _ = _
    rw [h2]
    simp

/-! ### Balanced calls -/

theorem micros_append (level : Nat) (a b : List Ev) : micros level (a ++ b) = micros level a ++ micros level b := by
  simp [micros]

theorem micros_cons (level : Nat) (e : Ev) (b : List Ev) : micros level (e :: b) = micro level e ++ micros level b := by
  simp [micros]

theorem seq_enter (level : Nat) (k : Kind) (n : String) (t : Int) (z : Sizes) (r : Nat) (h : k.level ≤ level) :
    ∃ r', seqExec (micro level (.enter k n t)) z r = .ok (⟨z.calls + 1, z.times + 1⟩, r') := by
  cases k <;> simp only [micro, if_pos h] <;> exact ⟨_, rfl⟩

theorem seq_leave (level : Nat) (k : Kind) (t : Int) (c n : Nat) (r : Nat) (h : k.level ≤ level) :
    ∃ r', seqExec (micro level (.leave k t)) ⟨c + 1, n + 1⟩ r = .ok (⟨c, n⟩, r') := by
  simp only [micro, if_pos h]
  exact ⟨_, rfl⟩

theorem seq_forest (level : Nat) (f : Forest) : ∀ (z : Sizes) (r : Nat),
    ∃ r', seqExec (micros level f.events) z r = .ok (z, r') := by
  induction f with
  | nil => exact fun z r => ⟨r, rfl⟩
  | node k n ti tt kids next ih1 ih2 =>
    intro z r
    simp only [Forest.events, micros_cons, micros_append]
    by_cases h : k.level ≤ level
    · obtain ⟨r1, h1⟩ := seq_enter level k n ti z r h
      obtain ⟨r2, h2⟩ := ih1 ⟨z.calls + 1, z.times + 1⟩ r1
      obtain ⟨r3, h3⟩ := seq_leave level k tt z.calls z.times r2 h
      obtain ⟨r4, h4⟩ := ih2 z r3
      refine ⟨r4, ?_⟩
      rw [seqExec_append _ _ _ _ h1, seqExec_append _ _ _ _ h2, seqExec_append _ _ _ _ h3, h4]
    · obtain ⟨r2, h2⟩ := ih1 z r
      obtain ⟨r4, h4⟩ := ih2 z r2
      refine ⟨r4, ?_⟩
      simp only [micro, if_neg h, List.nil_append]
      rw [seqExec_append _ _ _ _ h2, h4]

theorem logged_iff (level : Nat) (k : Kind) : Logged level k = true ↔ k.level ≤ level := by
  cases k <;> simp [Logged, Kind.level]

theorem entries_node (level : Nat) (k : Kind) (n : String) (ti tt : Int) (kids next : Forest) :
    entries level (Forest.node k n ti tt kids next).events =
      (if Logged level k then 1 else 0) + entries level kids.events + entries level next.events := by
  simp only [Forest.events, entries, List.countP_cons, List.countP_append]
  simp
  omega

theorem micros_nil (level : Nat) (f : Forest) : entries level f.events = 0 → micros level f.events = [] := by
  induction f with
  | nil => exact fun _ => rfl
  | node k n ti tt kids next ih1 ih2 =>
    intro h
    rw [entries_node] at h
    have hl : ¬ k.level ≤ level := by
      rw [← logged_iff]
      intro hc
      rw [hc] at h
      simp at h
    simp only [Forest.events, micros_cons, micros_append, ih1 (by omega), ih2 (by omega), micro, if_neg hl]
    rfl

/-- A forest with a logged call starts with the four steps of an entry; the steps after them take one element off both
vectors. -/
theorem head (level : Nat) (f : Forest) : 0 < entries level f.events →
    ∃ rest, micros level f.events = [.load .calls, .grow .calls, .load .times, .grow .times] ++ rest ∧
      ∀ c n r, ∃ r', seqExec rest ⟨c + 1, n + 1⟩ r = .ok (⟨c, n⟩, r') := by
  induction f with
  | nil => exact fun h => absurd h (by simp [entries, Forest.events])
  | node k nm ti tt kids next ih1 ih2 =>
    intro hpos
    simp only [Forest.events, micros_cons, micros_append]
    by_cases h : k.level ≤ level
    · refine ⟨(if k = .solver then [.load .calls] else []) ++
        (micros level kids.events ++ (micro level (.leave k tt) ++ micros level next.events)), ?_, ?_⟩
      · simp [micro, h]
      · intro c n r
        have h0 : ∃ r0, seqExec (if k = .solver then [.load .calls] else []) ⟨c + 1, n + 1⟩ r =
            .ok (⟨c + 1, n + 1⟩, r0) := by
          by_cases hk : k = .solver
          · rw [if_pos hk]
            exact ⟨_, rfl⟩
          · rw [if_neg hk]
            exact ⟨_, rfl⟩
        obtain ⟨r0, h0⟩ := h0
        obtain ⟨r1, h1⟩ := seq_forest level kids ⟨c + 1, n + 1⟩ r0
        obtain ⟨r2, h2⟩ := seq_leave level k tt c n r1 h
        obtain ⟨r3, h3⟩ := seq_forest level next ⟨c, n⟩ r2
        refine ⟨r3, ?_⟩
        rw [seqExec_append _ _ _ _ h0, seqExec_append _ _ _ _ h1, seqExec_append _ _ _ _ h2, h3]
    · have hl : Logged level k = false := by
        rw [← Bool.not_eq_true, logged_iff]
        exact h
      simp only [micro, if_neg h, List.nil_append]
      by_cases hk : 0 < entries level kids.events
      · obtain ⟨rest, e, hr⟩ := ih1 hk
        refine ⟨rest ++ micros level next.events, by rw [e]; simp, fun c n r => ?_⟩
        obtain ⟨r1, h1⟩ := hr c n r
        obtain ⟨r2, h2⟩ := seq_forest level next ⟨c, n⟩ r1
        exact ⟨r2, by rw [seqExec_append _ _ _ _ h1, h2]⟩
      · have hn : 0 < entries level next.events := by
          rw [entries_node, hl] at hpos
          simp at hpos
          omega
        obtain ⟨rest, e, hr⟩ := ih2 hn
        exact ⟨rest, by rw [micros_nil level kids (by omega), e]; rfl, hr⟩

/-! ### Races and their absence -/

variable {level : Nat} {prog : Nat → List Ev}

/-- **C106**: several threads that make logger calls race if and only if two of them make a call that is logged at the
log level. -/
theorem C106_race_iff (hb : ∀ t, Balanced (prog t)) :
    Races level prog ↔ ∃ t u, t ≠ u ∧ 0 < entries level (prog t) ∧ 0 < entries level (prog u) := by
  constructor
  · rintro ⟨t, u, htu, a, ha, b, hb', _⟩
    have key : ∀ t, ∀ a ∈ micros level (prog t), 0 < entries level (prog t) := by
      intro t a ha
      obtain ⟨f, hf⟩ := hb t
      rw [hf] at ha ⊢
      rcases Nat.eq_zero_or_pos (entries level f.events) with h | h
      · rw [micros_nil level f h] at ha
        exact absurd ha (by simp)
      · exact h
    exact ⟨t, u, htu, key t a ha, key u b hb'⟩
  · rintro ⟨t, u, htu, ht, hu⟩
    obtain ⟨f, hf⟩ := hb t
    obtain ⟨g, hg⟩ := hb u
    rw [hf] at ht
    rw [hg] at hu
    obtain ⟨_, e1, _⟩ := head level f ht
    obtain ⟨_, e2, _⟩ := head level g hu
    refine ⟨t, u, htu, .grow .calls, ?_, .grow .calls, ?_, rfl, Or.inl rfl⟩
    · rw [hf, e1]
      simp
    · rw [hg, e2]
      simp

theorem run_single (t : Nat) (z : Sizes) : ∀ (sched : List Nat) (s : State), (∀ u, u ≠ t → s.prog u = []) →
    (∃ r', seqExec (s.prog t) s.sizes (s.reg t) = .ok (z, r')) →
    ∃ s', run sched s = .ok s' ∧ (s'.prog t = [] → s'.sizes = z)
  | [], s, _, ⟨r', h⟩ => by
    refine ⟨s, rfl, fun hn => ?_⟩
    rw [hn] at h
    have e := Res.ok.inj h
    exact congrArg Prod.fst e
  | v :: sched, s, hu, ⟨r', h⟩ => by
    by_cases hv : v = t
    · subst hv
      cases hp : s.prog v with
      | nil =>
        have hs : step v s = .ok s := by
          unfold step
          rw [hp]
        obtain ⟨s', h1, h2⟩ := run_single v z sched s hu ⟨r', h⟩
        refine ⟨s', ?_, h2⟩
        show (step v s >>= fun x => run sched x) = _
        rw [hs]
        exact h1
      | cons m ms =>
        rw [hp] at h
        obtain ⟨⟨z1, r1⟩, h1, h⟩ := Res.bind_eq_ok.mp h
        have hs : step v s = .ok ⟨z1, Function.update s.reg v r1, Function.update s.prog v ms⟩ := by
          unfold step
          rw [hp]
          show (exec m s.sizes (s.reg v) >>= _) = _
          rw [h1]
          rfl
        obtain ⟨s', h2, h3⟩ := run_single v z sched
          ⟨z1, Function.update s.reg v r1, Function.update s.prog v ms⟩
          (fun u hne => by simp [hne, hu u hne]) ⟨r', by simpa using h⟩
        refine ⟨s', ?_, h3⟩
        show (step v s >>= fun x => run sched x) = _
        rw [hs]
        exact h2
    · have hs : step v s = .ok s := by
        unfold step
        rw [hu v hv]
      obtain ⟨s', h1, h2⟩ := run_single t z sched s hu ⟨r', h⟩
      refine ⟨s', ?_, h2⟩
      show (step v s >>= fun x => run sched x) = _
      rw [hs]
      exact h1

/-- **C106**: if there is no race, logging works under every schedule: no logger call goes wrong, and the logger is left
as it was. -/
theorem C106_safe (hb : ∀ t, Balanced (prog t)) (h : ¬ Races level prog) (z : Sizes) (sched : List Nat) :
    ∃ s, run sched (start level z prog) = .ok s ∧ ((∀ t, s.prog t = []) → s.sizes = z) := by
  have h1 : ∃ t, ∀ u, u ≠ t → entries level (prog u) = 0 := by
    by_contra hc
    push Not at hc
    obtain ⟨u, _, hu⟩ := hc 0
    obtain ⟨v, hv, hv'⟩ := hc u
    exact h ((C106_race_iff hb).mpr ⟨v, u, hv, Nat.pos_of_ne_zero hv', Nat.pos_of_ne_zero hu⟩)
  obtain ⟨t, ht⟩ := h1
  obtain ⟨f, hf⟩ := hb t
  obtain ⟨s', h2, h3⟩ := run_single t z sched (start level z prog)
    (fun u hu => by
      obtain ⟨g, hg⟩ := hb u
      show micros level (prog u) = []
      rw [hg]
      exact micros_nil level g (by rw [← hg]; exact ht u hu))
    (by
      show ∃ r', seqExec (micros level (prog t)) z 0 = .ok (z, r')
      rw [hf]
      exact seq_forest level f z 0)
  exact ⟨s', h2, fun h => h3 (h t)⟩

/-- threads that run one after the other, each to its end -/
theorem run_serial (L : List Nat) : ∀ (s : State), L.Nodup →
    (∀ v ∈ L, ∃ f : Forest, s.prog v = micros level f.events) →
    ∃ sched reg, run sched s = .ok ⟨s.sizes, reg, fun v => if v ∈ L then [] else s.prog v⟩ := by
  induction L with
  | nil => exact fun s _ _ => ⟨[], s.reg, by simp [run]⟩
  | cons v L ih =>
    intro s hn h
    obtain ⟨f, hf⟩ := h v (by simp)
    obtain ⟨r1, h1⟩ := seq_forest level f s.sizes (s.reg v)
    obtain ⟨reg, h2⟩ := run_thread v (micros level f.events) [] s (by simp [hf]) h1
    have hv : v ∉ L := (List.nodup_cons.mp hn).1
    obtain ⟨sched, reg', h3⟩ := ih ⟨s.sizes, reg, Function.update s.prog v []⟩ (List.nodup_cons.mp hn).2 (by
      intro w hw
      obtain ⟨g, hg⟩ := h w (by simp [hw])
      refine ⟨g, ?_⟩
      have : w ≠ v := fun e => hv (e ▸ hw)
      simp [this, hg])
    refine ⟨List.replicate (micros level f.events).length v ++ sched, reg', ?_⟩
    rw [run_append _ _ _ h2, h3]
    congr 2
    funext w
    by_cases hw : w = v
    · subst hw
      simp
    · simp [hw]

theorem step_cons {t : Nat} {s : State} {m : Micro} {rest : List Micro} {z : Sizes} {r : Nat}
    (hp : s.prog t = m :: rest) (h : exec m s.sizes (s.reg t) = .ok (z, r)) :
    step t s = .ok ⟨z, Function.update s.reg t r, Function.update s.prog t rest⟩ := by
  unfold step
  rw [hp]
  show (exec m s.sizes (s.reg t) >>= _) = _
  rw [h]
  rfl

/-- two entries, interleaved so that both threads read the size of `calls` before either writes it -/
theorem lost {t u : Nat} (htu : t ≠ u) {rt ru : List Micro} {s : State} {c n : Nat} (hz : s.sizes = ⟨c, n⟩)
    (ht : s.prog t = [.load .calls, .grow .calls, .load .times, .grow .times] ++ rt)
    (hu : s.prog u = [.load .calls, .grow .calls, .load .times, .grow .times] ++ ru) :
    ∃ s', run [t, u, t, u, t, t, u, u] s = .ok s' ∧ s'.sizes = ⟨c + 1, n + 2⟩ ∧
      s'.prog = Function.update (Function.update s.prog t rt) u ru := by
  have hut : u ≠ t := htu.symm
  obtain ⟨z, reg, prog⟩ := s
  dsimp only at hz ht hu
  subst hz
  simp only [List.cons_append, List.nil_append] at ht hu
  simp only [run]
  rw [step_cons (z := ⟨c, n⟩) (r := c) ht (by rfl), Res.ok_bind]
  rw [step_cons (z := ⟨c, n⟩) (r := c) (m := .load .calls) (by simp [hut, hu]; rfl) (by rfl), Res.ok_bind]
  rw [step_cons (z := ⟨c + 1, n⟩) (r := c) (m := .grow .calls) (by simp [htu]; rfl) (by simp [exec, htu, Sizes.set]), Res.ok_bind]
  rw [step_cons (z := ⟨c + 1, n⟩) (r := c) (m := .grow .calls) (by simp [hut]; rfl) (by simp [exec, hut, Sizes.set]), Res.ok_bind]
  rw [step_cons (z := ⟨c + 1, n⟩) (r := n) (m := .load .times) (by simp [htu]; rfl) (by rfl), Res.ok_bind]
  rw [step_cons (z := ⟨c + 1, n + 1⟩) (r := n) (m := .grow .times) (by simp [htu]; rfl) (by simp [exec, htu, Sizes.set]), Res.ok_bind]
  rw [step_cons (z := ⟨c + 1, n + 1⟩) (r := n + 1) (m := .load .times) (by simp [hut]; rfl) (by rfl), Res.ok_bind]
  rw [step_cons (z := ⟨c + 1, n + 2⟩) (r := n + 1) (m := .grow .times) (by simp [hut]; rfl) (by simp [exec, hut, Sizes.set]), Res.ok_bind]
  refine ⟨_, rfl, rfl, ?_⟩
  funext v
  by_cases h1 : v = t
  · subst h1
    simp [htu]
  · by_cases h2 : v = u
    · subst h2
      simp
    · simp [h1, h2]

/-- **C106 is violated**: if two threads make logged calls, then under some schedule (which lets all threads finish)
one entry gets lost, and the logger ends with one element less in `calls`. -/
theorem C106_lost_violated (hb : ∀ t, Balanced (prog t)) {T : Nat} (hT : ∀ t, T ≤ t → prog t = []) {t u : Nat}
    (htu : t ≠ u) (ht : 0 < entries level (prog t)) (hu : 0 < entries level (prog u)) (c n : Nat) :
    ∃ sched s, run sched (start level ⟨c + 1, n⟩ prog) = .ok s ∧ (∀ v, s.prog v = []) ∧ s.sizes = ⟨c, n⟩ := by
  obtain ⟨f, hf⟩ := hb t
  obtain ⟨g, hg⟩ := hb u
  obtain ⟨rt, e1, k1⟩ := head level f (hf ▸ ht)
  obtain ⟨ru, e2, k2⟩ := head level g (hg ▸ hu)
  obtain ⟨s1, h1, z1, q1⟩ := lost htu (s := start level ⟨c + 1, n⟩ prog) (rt := rt) (ru := ru) rfl
    (by show micros level (prog t) = _; rw [hf, e1]) (by show micros level (prog u) = _; rw [hg, e2])
  -- the rest of thread t
  obtain ⟨r2, h2⟩ := k1 (c + 1) (n + 1) (s1.reg t)
  obtain ⟨reg2, h2⟩ := run_thread t rt [] s1 (by simp [q1, htu]) (by rw [z1]; exact h2)
  -- the rest of thread u
  obtain ⟨r3, h3⟩ := k2 c n (reg2 u)
  obtain ⟨reg3, h3⟩ := run_thread u ru [] ⟨⟨c + 1, n + 1⟩, reg2, Function.update s1.prog t []⟩
    (by simp [q1, htu.symm]) h3
  -- the other threads
  obtain ⟨sched, reg4, h4⟩ := run_serial (level := level) ((List.range T).filter (fun v => v ≠ t ∧ v ≠ u))
    ⟨⟨c, n⟩, reg3, Function.update (Function.update s1.prog t []) u []⟩ (List.nodup_range.filter _) (by
      intro v hv
      simp only [ne_eq, List.mem_filter, decide_eq_true_eq] at hv
      obtain ⟨f, hf⟩ := hb v
      refine ⟨f, ?_⟩
      simp [hv.2.1, hv.2.2, q1, start, hf])
  refine ⟨_, _, ((run_append _ _ _ h1).trans ((run_append _ _ _ h2).trans ((run_append _ _ _ h3).trans h4))), ?_, rfl⟩
  intro v
  dsimp only
  split
  · rfl
  · next hv =>
    by_cases h1 : v = t
    · subst h1
      simp [htu]
    by_cases h2 : v = u
    · subst h2
      simp
    simp only [ne_eq, List.mem_filter, List.mem_range, decide_eq_true_eq, h1, h2, not_false_eq_true, and_self,
      and_true, Nat.not_lt] at hv
    simp [h1, h2, q1, start, hT v hv, micros]

/-! ### The diagonal of a LinearOperator -/

theorem balanced_append {a b : List Ev} (ha : Balanced a) (hb : Balanced b) : Balanced (a ++ b) := by
  obtain ⟨f, rfl⟩ := ha
  obtain ⟨g, rfl⟩ := hb
  induction f with
  | nil => exact ⟨g, rfl⟩
  | node k n ti tt kids next _ ih =>
    obtain ⟨h, e⟩ := ih
    exact ⟨.node k n ti tt kids h, by simp [Forest.events, ← e]⟩

theorem balanced_flatMap {callback : Nat → List Ev} (h : ∀ i, Balanced (callback i)) :
    ∀ work : List Nat, Balanced (work.flatMap callback)
  | [] => ⟨.nil, rfl⟩
  | i :: work => by
    rw [List.flatMap_cons]
    exact balanced_append (h i) (balanced_flatMap h work)

theorem balanced_diag {callback : Nat → List Ev} (h : ∀ i, Balanced (callback i)) (work : List Nat) :
    Balanced (diagCalls callback work) :=
  balanced_append ⟨.node .util "vector" 0 0 .nil .nil, rfl⟩ (balanced_flatMap h work)

theorem balanced_crs : Balanced crsCallback :=
  ⟨.node .util "vector" 0 0 .nil (.node .func "Dmatvec_core" 0 0 .nil .nil), rfl⟩

/-- the logger calls of the threads of the parallel region of `diag` -/
def region (T : Nat) (callback : Nat → List Ev) (work : Nat → List Nat) (t : Nat) : List Ev :=
  if t < T then diagCalls callback (work t) else []

theorem balanced_region {T : Nat} {callback : Nat → List Ev} (h : ∀ i, Balanced (callback i)) (work : Nat → List Nat)
    (t : Nat) : Balanced (region T callback work t) := by
  unfold region
  split
  · exact balanced_diag h _
  · exact ⟨.nil, rfl⟩

theorem entries_append (level : Nat) (a b : List Ev) : entries level (a ++ b) = entries level a + entries level b := by
  simp [entries]

theorem entries_crs (level : Nat) (work : List Nat) : 0 < entries level (diagCalls (fun _ => crsCallback) work) ↔
    3 ≤ level ∨ (2 ≤ level ∧ work ≠ []) := by
  unfold diagCalls
  rw [entries_append]
  have h1 : entries level [.enter .util "vector" 0, .leave .util 0] = if 3 ≤ level then 1 else 0 := by
    by_cases h : 3 ≤ level <;> simp [entries, Logged, h]
  have h2 : ∀ work : List Nat, 0 < entries level (work.flatMap fun _ => crsCallback) ↔ 2 ≤ level ∧ work ≠ [] := by
    intro work
    induction work with
    | nil => simp [entries]
    | cons i work ih =>
      rw [List.flatMap_cons, entries_append]
      have h3 : entries level crsCallback = (if 3 ≤ level then 1 else 0) + (if 2 ≤ level then 1 else 0) := by
        by_cases h : 3 ≤ level
        · have : 2 ≤ level := by omega
          simp [entries, Logged, crsCallback, h, this]
        · by_cases h' : 2 ≤ level <;> simp [entries, Logged, crsCallback, h, h']
      rw [h3]
      by_cases h : 2 ≤ level
      · simp only [h, if_true, true_and]
        exact ⟨fun _ => by simp, fun _ => by omega⟩
      · have h' : ¬ 3 ≤ level := by omega
        simp only [h, h', if_false, Nat.add_zero, Nat.zero_add, ih]
        simp
  rw [h1]
  have := h2 work
  by_cases h : 3 ≤ level
  · simp only [h, if_true, true_or, iff_true]
    omega
  · simp only [h, if_false, Nat.zero_add, this, false_or]

/-- **C106**: taking the diagonal of an operator made from a CRS matrix, on `T` threads, races in the logger if and only
if utilities are logged (level 3) and there are two threads, or functions are logged (level 2) and two threads have
iterations of the loop. -/
theorem C106_diag_race_iff (level T : Nat) (work : Nat → List Nat) :
    Races level (region T (fun _ => crsCallback) work) ↔
      (3 ≤ level ∧ 2 ≤ T) ∨
        (2 ≤ level ∧ ∃ t u, t < T ∧ u < T ∧ t ≠ u ∧ work t ≠ [] ∧ work u ≠ []) := by
  rw [C106_race_iff (balanced_region (fun _ => balanced_crs) work)]
  have key : ∀ t, 0 < entries level (region T (fun _ => crsCallback) work t) ↔
      t < T ∧ (3 ≤ level ∨ (2 ≤ level ∧ work t ≠ [])) := by
    intro t
    unfold region
    split
    · next h => rw [entries_crs]; simp [h]
    · next h => simp [entries, h]
  simp only [key]
  constructor
  · rintro ⟨t, u, htu, ⟨ht, h1⟩, hu, h2⟩
    rcases h1 with h1 | h1
    · exact Or.inl ⟨h1, by omega⟩
    · rcases h2 with h2 | h2
      · exact Or.inl ⟨h2, by omega⟩
      · exact Or.inr ⟨h1.1, t, u, ht, hu, htu, h1.2, h2.2⟩
  · rintro (⟨h, hT⟩ | ⟨h, t, u, ht, hu, htu, h1, h2⟩)
    · exact ⟨0, 1, by decide, ⟨by omega, Or.inl h⟩, by omega, Or.inl h⟩
    · exact ⟨t, u, htu, ⟨ht, Or.inr ⟨h, h1⟩⟩, hu, Or.inr ⟨h, h2⟩⟩

theorem run_empty {t : Nat} : ∀ (sched : List Nat) (s : State) {s' : State}, s.prog t = [] → run sched s = .ok s' →
    s'.prog t = []
  | [], s, s', h, e => by
    cases e
    exact h
  | v :: sched, s, s', h, e => by
    obtain ⟨s1, h1, e⟩ := Res.bind_eq_ok.mp e
    refine run_empty sched s1 ?_ e
    unfold step at h1
    split at h1
    · cases h1
      exact h
    · next m rest hp =>
      obtain ⟨⟨z, r⟩, _, h1⟩ := Res.bind_eq_ok.mp h1
      have e1 := Res.ok.inj h1
      rw [← e1]
      have : t ≠ v := by
        rintro rfl
        rw [h] at hp
        cases hp
      simp [this, h]

/-- what the thread that makes a single logger call does to the logger -/
theorem run_one (level : Nat) (e : Ev) (z : Sizes) {z' : Sizes} {r : Nat} (h : seqExec (micro level e) z 0 = .ok (z', r)) :
    ∃ reg, run (List.replicate (micro level e).length 0)
      { sizes := z, reg := fun _ => 0, prog := fun t => if t = 0 then micro level e else [] } =
        .ok ⟨z', reg, fun _ => []⟩ := by
  obtain ⟨reg, h1⟩ := run_thread 0 (micro level e) []
    { sizes := z, reg := fun _ => 0, prog := fun t => if t = 0 then micro level e else [] } (by simp) h
  refine ⟨reg, ?_⟩
  rw [h1]
  congr 2
  funext v
  by_cases hv : v = 0
  · subst hv
    simp
  · simp [hv]

/-- **C106**: without a race, `diag` leaves the logger as it was, under every schedule. -/
theorem C106_diag_safe (level T : Nat) {callback : Nat → List Ev} (hb : ∀ i, Balanced (callback i))
    (work : Nat → List Nat) (h : ¬ Races level (region T callback work)) (sched : List Nat) (z : Sizes) :
    diag level T callback work sched z = .throw "not an execution: unfinished threads" ∨
      ∃ s, diag level T callback work sched z = .ok s ∧ s.sizes = z := by
  have h1 : ∃ d r, seqExec (micro level (.enter .func "diag" 0)) z 0 = .ok (d, r) ∧
      ∃ r', seqExec (micro level (.leave .func 0)) d 0 = .ok (z, r') := by
    by_cases hl : Kind.func.level ≤ level
    · obtain ⟨r, h1⟩ := seq_enter level .func "diag" 0 z 0 hl
      exact ⟨_, r, h1, seq_leave level .func 0 _ _ 0 hl⟩
    · exact ⟨z, 0, by simp only [micro, if_neg hl]; rfl, 0, by simp only [micro, if_neg hl]; rfl⟩
  obtain ⟨d, r, h1, r', h2⟩ := h1
  obtain ⟨reg1, g1⟩ := run_one level _ z h1
  obtain ⟨s, g2, g3⟩ := C106_safe (balanced_region (T := T) hb work) h d sched
  obtain ⟨reg3, g4⟩ := run_one level _ d h2
  unfold diag
  rw [g1, Res.ok_bind]
  have g2' : run sched (start level d (fun t => if t < T then diagCalls callback (work t) else [])) = .ok s := g2
  rw [g2', Res.ok_bind]
  split
  · exact Or.inl rfl
  · next hn =>
    right
    have hall : ∀ t, s.prog t = [] := by
      intro t
      by_cases ht : t < T
      · by_contra hc
        exact hn (List.any_eq_true.mpr ⟨t, by simpa using ht, by simpa using hc⟩)
      · exact run_empty sched _ (by simp [start, region, ht, micros]) g2
    rw [g3 hall, g4]
    exact ⟨_, rfl, rfl⟩

/-- **C106 is violated by `diag`**: whenever there is a race, there is a schedule under which `diag`, called while no
other logged call is running, ends in undefined behaviour: `func_out` of `diag` pops from an empty vector. -/
theorem C106_diag_violated (level T : Nat) {callback : Nat → List Ev} (hb : ∀ i, Balanced (callback i))
    (hl : 2 ≤ level) (work : Nat → List Nat) (h : Races level (region T callback work)) :
    ∃ sched, diag level T callback work sched ⟨0, 0⟩ = .ub "pop_back on an empty vector" := by
  obtain ⟨t, u, htu, h1, h2⟩ := (C106_race_iff (balanced_region hb work)).mp h
  obtain ⟨sched, s, g1, g2, g3⟩ := C106_lost_violated (balanced_region (T := T) hb work) (T := T)
    (fun t ht => by simp [region, Nat.not_lt.mpr ht]) htu h1 h2 0 1
  refine ⟨sched, ?_⟩
  have hk : Kind.func.level ≤ level := hl
  obtain ⟨r, e1⟩ := seq_enter level .func "diag" 0 ⟨0, 0⟩ 0 hk
  obtain ⟨reg1, e1⟩ := run_one level _ _ e1
  unfold diag
  rw [e1, Res.ok_bind]
  have g1' : run sched (start level ⟨0 + 1, 0 + 1⟩ (fun t => if t < T then diagCalls callback (work t) else [])) =
    .ok s := g1
  rw [g1', Res.ok_bind, if_neg (by simp [g2]), g3]
  simp only [micro, if_pos hk]
  rfl

/-! ### Concrete runs -/

/-- two iterations on two threads at log level 2: a race, hence undefined behaviour under some schedule -/
example : ∃ sched, diag 2 2 (fun _ => crsCallback) (fun t => [t]) sched ⟨0, 0⟩ = .ub "pop_back on an empty vector" :=
  C106_diag_violated 2 2 (fun _ => balanced_crs) (by decide) _
    ((C106_diag_race_iff 2 2 _).mpr (Or.inr ⟨by decide, 0, 1, by decide, by decide, by decide, by simp, by simp⟩))

/-- that schedule -/
example : diag 2 2 (fun _ => crsCallback) (fun t => [t])
    ([0, 1, 0, 1, 0, 0, 1, 1] ++ List.replicate 7 0 ++ List.replicate 7 1) ⟨0, 0⟩ matches .ub _ := by decide +kernel

/-- one thread after the other: nothing goes wrong -/
example : (match diag 2 2 (fun _ => crsCallback) (fun t => [t]) (List.replicate 11 0 ++ List.replicate 11 1) ⟨0, 0⟩ with
    | .ok s => s.sizes
    | _ => ⟨99, 99⟩) = ⟨0, 0⟩ := by decide +kernel

/-- at log level 1 there is no race, whatever the number of threads: the hypothesis of `C106_diag_safe` -/
example (T : Nat) (work : Nat → List Nat) (sched : List Nat) (z : Sizes) :
    diag 1 T (fun _ => crsCallback) work sched z = .throw "not an execution: unfinished threads" ∨
      ∃ s, diag 1 T (fun _ => crsCallback) work sched z = .ok s ∧ s.sizes = z :=
  C106_diag_safe 1 T (fun _ => balanced_crs) work (by
    rw [C106_diag_race_iff]
    rintro (h | h)
    · exact absurd h.1 (by decide)
    · exact absurd h.1 (by decide)) sched z

end LogRace
end Verif
