import Verif.Lemmas.Conc
import Verif.Spec.Elementwise
import Mathlib.Algebra.Order.Ring.Int
import Mathlib.Tactic.Ring

/-!
C24: element-wise functions are schedule independent and alias safe. C44: `alo`.
-/

namespace Verif.Conc

variable {α : Type}

theorem raceFree_loop1 {a y : Arr} {g : α → α} {m : List α} (ha : a.size = y.size)
    (h1 : a.off + a.size ≤ m.length) (h2 : y.off + y.size ≤ m.length) (hc : a.Compatible y) :
    RaceFree (loop1 a y g) m where
  src_lt := by simp only [loop1]; intro i hi b hb; simp at hb; omega
  dst_lt := by simp only [loop1]; intro i hi; omega
  dst_inj := by simp only [loop1]; intro i j _ _ h; omega
  no_conflict := by
    simp only [loop1]; intro i j hi hj hne h
    simp at h; unfold Arr.Compatible at hc; omega

theorem raceFree_loop2 {a b y : Arr} {g : α → α → α} {m : List α} (ha : a.size = y.size)
    (hb : b.size = y.size) (h1 : a.off + a.size ≤ m.length) (h3 : b.off + b.size ≤ m.length)
    (h2 : y.off + y.size ≤ m.length) (hc : a.Compatible y) (hd : b.Compatible y) :
    RaceFree (loop2 a b y g) m where
  src_lt := by simp only [loop2]; intro i hi c hc'; simp at hc'; omega
  dst_lt := by simp only [loop2]; intro i hi; omega
  dst_inj := by simp only [loop2]; intro i j _ _ h; omega
  no_conflict := by
    simp only [loop2]; intro i j hi hj hne h
    simp at h; unfold Arr.Compatible at hc hd; omega

/-- what C24 promises about a run of a call, in terms of memory before and after -/
structure Promise (out : Arr) (want : Nat → Option α) (sched : List Nat) (m : List α)
    (s : State α) : Prop where
  /-- a schedule giving every iteration three turns completes the call -/
  completes : (∀ i, i < out.size → 3 ≤ sched.count i) → ∀ i, i < out.size → (s.its i).done = true
  /-- once complete, the output holds the wanted values and nothing else has changed -/
  result : (∀ i, i < out.size → (s.its i).done = true) →
    s.mem.length = m.length ∧
    (∀ i, i < out.size → ∃ v, want i = some v ∧ out.el s.mem i = some v) ∧
    (∀ k, k < out.off ∨ out.off + out.size ≤ k → s.mem[k]? = m[k]?)

theorem promise_loop1 {a y : Arr} {g : α → α} {m : List α} (hR : RaceFree (loop1 a y g) m)
    (sched : List Nat) (gb : Nat → Nat → α) (want : Nat → Option α)
    (hw : ∀ i u, m[a.off + i]? = some u → want i = some (g u)) :
    ∃ s, run (loop1 a y g) sched (start m gb) = .ok s ∧ Promise y want sched m s := by
  obtain ⟨s, hs, hc, hr⟩ := raceFree_run hR sched gb
  refine ⟨s, hs, ?_, ?_⟩
  · intro h
    refine hc ?_
    intro i hi
    have := h i hi
    simp only [loop1, List.length_cons, List.length_nil]; omega
  · intro hF
    obtain ⟨q1, q2, q3⟩ := hr hF
    refine ⟨q1, ?_, ?_⟩
    · intro i hi
      obtain ⟨r, hl, hv⟩ := q2 i hi
      have h0 : m[a.off + i]? = some (r 0) := hl 0 _ (by simp [loop1]) (by simp [loop1])
      exact ⟨g (r 0), hw i _ h0, hv⟩
    · intro k hk
      apply q3
      intro i hi
      simp only [loop1] at hi ⊢
      omega

theorem promise_loop2 {a b y : Arr} {g : α → α → α} {m : List α} (hR : RaceFree (loop2 a b y g) m)
    (sched : List Nat) (gb : Nat → Nat → α) (want : Nat → Option α)
    (hw : ∀ i u v, m[a.off + i]? = some u → m[b.off + i]? = some v → want i = some (g u v)) :
    ∃ s, run (loop2 a b y g) sched (start m gb) = .ok s ∧ Promise y want sched m s := by
  obtain ⟨s, hs, hc, hr⟩ := raceFree_run hR sched gb
  refine ⟨s, hs, ?_, ?_⟩
  · intro h
    refine hc ?_
    intro i hi
    have := h i hi
    simp only [loop2, List.length_cons, List.length_nil]; omega
  · intro hF
    obtain ⟨q1, q2, q3⟩ := hr hF
    refine ⟨q1, ?_, ?_⟩
    · intro i hi
      obtain ⟨r, hl, hv⟩ := q2 i hi
      have h0 : m[a.off + i]? = some (r 0) := hl 0 _ (by simp [loop2]) (by simp [loop2])
      have h1 : m[b.off + i]? = some (r 1) := hl 1 _ (by simp [loop2]) (by simp [loop2])
      exact ⟨g (r 0) (r 1), hw i _ _ h0 h1, hv⟩
    · intro k hk
      apply q3
      intro i hi
      simp only [loop2] at hi ⊢
      omega

variable [Zero α] [One α] [Add α] [Sub α] [Neg α] [Mul α] [Div α] [Max α] [Min α]

/-- **C24.** For every element-wise function, all argument sizes, every memory, every aliasing in which
the output coincides with an input or is disjoint from it, and every interleaving of the loads and
stores of the iterations: the call runs without fault, completes, every output element is the function
of the inputs' elements before the call, and no other element of memory changes. -/
theorem C24_elementwise (c : Call α) (m : List α) (h : c.Legal m) (sched : List Nat)
    (garbage : Nat → Nat → α) :
    ∃ s, c.exec sched m garbage = .ok s ∧ Promise c.out (fun i => c.want m i) sched m s := by
  obtain ⟨h1, h2, h3, h4⟩ := h
  cases c
  case fill al y =>
    obtain ⟨s, hs, hc, hr⟩ := raceFree_run (L :=
      { N := y.size, srcs := fun _ => [], dst := fun i => y.off + i, f := fun _ _ => al }) (m := m)
      { src_lt := by simp
        dst_lt := by intro i hi; simp only at hi ⊢; simp only [Call.out] at h3; omega
        dst_inj := by intro i j _ _ h; simp only at h; omega
        no_conflict := by simp } sched garbage
    refine ⟨s, hs, ⟨?_, ?_⟩⟩
    · intro h
      exact hc (fun i hi => by have := h i hi; simp only [List.length_nil]; omega)
    · intro hF
      obtain ⟨q1, q2, q3⟩ := hr hF
      refine ⟨q1, ?_, ?_⟩
      · intro i hi
        obtain ⟨r, _, hv⟩ := q2 i hi
        exact ⟨al, rfl, hv⟩
      · intro k hk
        apply q3
        intro i hi
        simp only [Call.out] at hk hi ⊢
        omega
  case scal al x =>
    simp only [Call.ins, Call.out, List.forall_mem_cons] at h1 h2 h3 h4
    exact promise_loop1 (raceFree_loop1 rfl h3 h3 (Or.inl rfl)) sched garbage _
      (fun i u hu => by simp [Call.want, Arr.el, hu])
  all_goals
    simp only [Call.ins, Call.out, List.forall_mem_cons] at h1 h2 h3 h4
    unfold Call.exec Call.loop
    simp only [same2, same3]
    rw [cassert_decide (by omega), Res.ok_bind, Res.ok_bind]
    first
    | exact promise_loop1 (raceFree_loop1 h1.1 h2.1 h3 h4.1) sched garbage _
        (fun i u hu => by simp [Call.want, Arr.el, hu])
    | exact promise_loop2 (raceFree_loop2 h1.1 (by first | exact h1.2.1 | rfl) h2.1 h2.2.1 h3 h4.1
        (by first | exact h4.2.1 | exact Or.inl rfl)) sched garbage _
        (fun i u v hu hv => by simp [Call.want, Arr.el, hu, hv])

/-- `axpyz(2, x, y, x)` with `x` at 0, `y` at 2, both of size 2, the two iterations interleaved -/
example : ((Call.axpyz 2 ⟨0, 2⟩ ⟨2, 2⟩ ⟨0, 2⟩ : Call Int).exec [1, 0, 1, 0, 0, 1] [1, 2, 30, 40]
    (fun _ _ => 7)).Sat (fun s => s.mem = [32, 44, 30, 40]) := ⟨_, rfl, rfl⟩

example : (Call.axpyz 2 ⟨0, 2⟩ ⟨2, 2⟩ ⟨0, 2⟩ : Call Int).Legal [1, 2, 30, 40] :=
  ⟨by decide, by decide, by decide, by simp [Call.ins, Call.out, Arr.Compatible]⟩

omit [Zero α] [One α] [Add α] [Sub α] [Neg α] [Mul α] [Div α] [Max α] [Min α] in
theorem same2_abort {a y : Arr} {L : Loop α} (h : a.size ≠ y.size) :
    same2 a y L = .abort "assert" := by simp [same2, cassert, h]

omit [Zero α] [One α] [Add α] [Sub α] [Neg α] [Mul α] [Div α] [Max α] [Min α] in
theorem same3_abort {a b y : Arr} {L : Loop α} (h : ¬ (a.size = b.size ∧ a.size = y.size)) :
    same3 a b y L = .abort "assert" := by
  unfold same3 cassert
  rw [if_neg (by simpa using h)]; rfl

theorem exec_abort {c : Call α} {msg : String} (h : c.loop = .abort msg) {sched : List Nat}
    {m : List α} {garbage : Nat → Nat → α} : ∃ msg, c.exec sched m garbage = .abort msg := by
  unfold Call.exec; rw [h]; exact ⟨_, rfl⟩

/-- **C24 (rejection).** Every function except `times(a, b, y)` stops in an assertion when an argument
has another size than the output, before touching memory. -/
theorem C24_sizes_checked (c : Call α) (hc : ∀ a b y, c ≠ .times a b y)
    (h : ∃ a ∈ c.ins, a.size ≠ c.out.size) (sched : List Nat) (m : List α)
    (garbage : Nat → Nat → α) : ∃ msg, c.exec sched m garbage = .abort msg := by
  obtain ⟨x, hx, hne⟩ := h
  cases c
  case times a b y => exact absurd rfl (hc a b y)
  case fill => simp [Call.ins] at hx
  all_goals
    simp only [Call.ins, List.mem_cons, List.not_mem_nil, or_false] at hx
    simp only [Call.out] at hne
    first
    | (subst hx; exact absurd rfl hne)
    | (refine exec_abort (msg := "assert") ?_
       refine same2_abort ?_
       subst hx; exact hne)
    | (refine exec_abort (msg := "assert") ?_
       refine same2_abort ?_
       rcases hx with hx | hx <;> (subst hx; first | exact hne | exact absurd rfl hne))
    | (refine exec_abort (msg := "assert") ?_
       refine same3_abort ?_
       rintro ⟨q1, q2⟩
       rcases hx with hx | hx <;> (subst hx; omega))

example : (Call.vadd ⟨0, 2⟩ ⟨2, 1⟩ ⟨0, 2⟩ : Call Int).exec [] [1, 2, 3] (fun _ _ => 0) = .abort "assert" :=
  rfl

end Verif.Conc

namespace Verif.Conc

/-- **C24 (negation for `times`).** `times(a, b, y)` does not compare the size of `b`: a shorter `b`
passes the checks and is read out of bounds. -/
theorem C24_times_size_violated : ∃ (a b y : Arr) (m : List Int) (sched : List Nat),
    a.size = y.size ∧ b.size < y.size ∧ a.off + a.size ≤ m.length ∧ b.off + b.size ≤ m.length ∧
    y.off + y.size ≤ m.length ∧
    ∃ msg, (Call.times a b y).exec sched m (fun _ _ => 0) = .ub msg :=
  ⟨⟨0, 2⟩, ⟨2, 1⟩, ⟨0, 2⟩, [1, 2, 3], [0, 0, 0, 1, 1], rfl, by decide, by decide, by decide, by decide,
    _, rfl⟩

/-- **C24 (overlap).** If the output overlaps an input without coinciding with it, the result depends
on the schedule: `copy` from elements 0,1 to elements 1,2 of the same storage. -/
theorem C24_overlap_violated : ∃ (a y : Arr) (m : List Int) (s1 s2 : List Nat) (r1 r2 : State Int),
    a.size = y.size ∧ a.off + a.size ≤ m.length ∧ y.off + y.size ≤ m.length ∧
    (Call.copy a y).exec s1 m (fun _ _ => 0) = .ok r1 ∧
    (Call.copy a y).exec s2 m (fun _ _ => 0) = .ok r2 ∧
    (∀ i, i < y.size → (r1.its i).done = true ∧ (r2.its i).done = true) ∧ r1.mem ≠ r2.mem := by
  refine ⟨⟨0, 2⟩, ⟨1, 2⟩, [1, 2, 3], [0, 0, 1, 1], [1, 1, 0, 0], _, _, rfl, by decide, by decide, rfl, rfl,
    ?_, ?_⟩
  · intro i hi
    match i, hi with
    | 0, _ => exact ⟨rfl, rfl⟩
    | 1, _ => exact ⟨rfl, rfl⟩
  · simp [State.setIt, start, loop1]

/-- **C44.** Over every linearly ordered commutative ring, for every legal call `alo(a, alpha, beta, y)`
(also in place) and every schedule: output element `i` is `alpha * a[i]` if `a[i] >= 0` and
`beta * a[i]` otherwise. -/
theorem C44_alo {R : Type} [CommRing R] [LinearOrder R] [Div R] (a y : Arr) (alpha beta : R)
    (m : List R) (h : (Call.alo a alpha beta y).Legal m) (sched : List Nat) (garbage : Nat → Nat → R)
    (hs : ∀ i, i < y.size → 3 ≤ sched.count i) :
    ∃ s, (Call.alo a alpha beta y).exec sched m garbage = .ok s ∧
      ∀ i u, i < y.size → m[a.off + i]? = some u →
        s.mem[y.off + i]? = some (if 0 ≤ u then alpha * u else beta * u) := by
  obtain ⟨s, he, hp⟩ := C24_elementwise _ m h sched garbage
  refine ⟨s, he, ?_⟩
  intro i u hi hu
  obtain ⟨_, q2, _⟩ := hp.result (hp.completes hs)
  obtain ⟨v, hv, hv'⟩ := q2 i hi
  change s.mem[y.off + i]? = some v at hv'
  rw [hv']
  simp only [Call.want, Arr.el, hu, Option.bind_eq_bind, Option.bind_some, Option.pure_def,
    Option.some.injEq] at hv
  rw [← hv]
  split
  · rename_i h0
    rw [min_eq_right h0]; ring_nf
  · rename_i h0
    rw [min_eq_left (le_of_lt (lt_of_not_ge h0))]; ring_nf

example : (Call.alo ⟨0, 2⟩ 3 5 ⟨2, 2⟩ : Call Int).Legal [4, -4, 0, 0] :=
  ⟨by decide, by decide, by decide, by simp [Call.ins, Call.out, Arr.Compatible]⟩

example : ((Call.alo ⟨0, 2⟩ 3 5 ⟨2, 2⟩ : Call Int).exec [1, 0, 1, 0, 0, 1] [4, -4, 0, 0]
    (fun _ _ => 7)).Sat (fun s => s.mem = [4, -4, 12, -20]) := ⟨_, rfl, rfl⟩

end Verif.Conc
