import Verif.Lemmas.Logger
import Verif.Model.LoggerSrc

/-!
# C35: the logger
-/

namespace Verif
namespace Log

/-- **C35 (balanced calls).** At every log level and in every state of the logger, the logger calls of a
forest of function calls never underflow, leave both stacks as they were, and write exactly the expected lines:
for each logged call the whole path of running logged calls and the time between its own entry and exit. -/
theorem C35_log (f : Forest) (s : State) :
    run f.events s = .ok { s with log := s.log ++ f.lines s.level s.calls } :=
  run_forest f s

/-- A solver that calls a utility and then a BLAS function, at level 2. -/
example : run (Forest.node .solver "solve" 1 9 (.node .util "send" 2 3 .nil (.node .func "dot" 4 6 .nil .nil)) .nil).events
    ⟨2, ["main"], [0], []⟩ =
    .ok ⟨2, ["main"], [0], [⟨.solver, ["main", "solve"], .start⟩, ⟨.func, ["main", "solve", "dot"], .finish 2⟩,
      ⟨.solver, ["main", "solve"], .finish 8⟩]⟩ := by decide +kernel

/-- **C35 (log levels).** Only the levels 0 to 3 can be set; level 0 writes nothing. -/
theorem C35_level (s : State) (l : Nat) :
    (l ≤ 3 → setLevel s l = .ok { s with level := l }) ∧ (3 < l → ∃ e, setLevel s l = .throw e) := by
  constructor
  · intro h; simp [setLevel, show ¬ 3 < l by omega]
  · intro h; exact ⟨"error bad LogLevel", by simp [setLevel, h]⟩

/-- **C35 (level 0).** At level 0 no logger call has any effect. -/
theorem C35_off (t : List Ev) (s : State) (h : s.level = 0) : run t s = .ok s := by
  induction t with
  | nil => rfl
  | cons e t ih =>
    have : step e s = .ok s := by
      cases e with
      | enter k n now => cases k <;> simp [step, enter, Kind.level, h]
      | leave k now => cases k <;> simp [step, leave, Kind.level, h]
    show (step e s >>= run t) = _
    rw [this]; exact ih

theorem depth_counts (level : Nat) (t : List Ev) (d d' : Nat) :
    depth level t d = some d' ↔
      (∀ i, exits level (t.take i) ≤ d + entries level (t.take i)) ∧
        d' + exits level t = d + entries level t := by
  induction t generalizing d with
  | nil => simp [depth, exits, entries, eq_comm]
  | cons e t ih =>
    have hall : ∀ P : Nat → Prop, (∀ i, P i) ↔ P 0 ∧ ∀ i, P (i + 1) := by
      intro P
      constructor
      · intro h; exact ⟨h 0, fun i => h (i + 1)⟩
      · rintro ⟨h0, h1⟩ i
        cases i with
        | zero => exact h0
        | succ i => exact h1 i
    rw [hall]
    simp only [List.take_succ_cons, List.take_zero]
    cases e with
    | enter k n now =>
      have e1 : ∀ u, entries level (.enter k n now :: u) = entries level u + if k.level ≤ level then 1 else 0 := by
        intro u; by_cases hk : k.level ≤ level <;> simp [entries, logged_eq, hk]
      have e2 : ∀ u, exits level (.enter k n now :: u) = exits level u := by
        intro u; simp [exits]
      simp only [e1, e2, depth]
      rw [ih]
      by_cases hk : k.level ≤ level
      · simp only [hk, if_true]
        constructor
        · rintro ⟨h1, h2⟩
          refine ⟨⟨by simp [exits], fun i => by have := h1 i; omega⟩, by omega⟩
        · rintro ⟨⟨-, h1⟩, h2⟩
          exact ⟨fun i => by have := h1 i; omega, by omega⟩
      · simp only [hk, if_false]
        constructor
        · rintro ⟨h1, h2⟩
          refine ⟨⟨by simp [exits], fun i => by have := h1 i; omega⟩, by omega⟩
        · rintro ⟨⟨-, h1⟩, h2⟩
          exact ⟨fun i => by have := h1 i; omega, by omega⟩
    | leave k now =>
      have e1 : ∀ u, exits level (.leave k now :: u) = exits level u + if k.level ≤ level then 1 else 0 := by
        intro u; by_cases hk : k.level ≤ level <;> simp [exits, logged_eq, hk]
      have e2 : ∀ u, entries level (.leave k now :: u) = entries level u := by
        intro u; simp [entries]
      simp only [e1, e2, depth]
      by_cases hk : k.level ≤ level
      · simp only [hk, if_true]
        cases d with
        | zero =>
          simp only [reduceCtorEq, false_iff]
          rintro ⟨⟨-, h1⟩, -⟩
          have := h1 0
          simp [exits, entries] at this
        | succ d =>
          simp only
          rw [ih]
          constructor
          · rintro ⟨h1, h2⟩
            refine ⟨⟨by simp [exits], fun i => by have := h1 i; omega⟩, by omega⟩
          · rintro ⟨⟨-, h1⟩, h2⟩
            exact ⟨fun i => by have := h1 i; omega, by omega⟩
      · simp only [hk, if_false]
        rw [ih]
        constructor
        · rintro ⟨h1, h2⟩
          refine ⟨⟨by simp [exits], fun i => by have := h1 i; omega⟩, by omega⟩
        · rintro ⟨⟨-, h1⟩, h2⟩
          exact ⟨fun i => by have := h1 i; omega, by omega⟩

/-- **C35 (exact condition).** A sequence of logger calls, started with empty stacks, works at a log level and
ends with empty stacks **iff** in every prefix the logged exits do not exceed the logged entries and in the
end there are as many of both.  Otherwise it underflows or leaves stale entries. -/
theorem C35_iff (t : List Ev) (level : Nat) :
    (∃ s', run t ⟨level, [], [], []⟩ = .ok s' ∧ s'.calls = [] ∧ s'.times = []) ↔
      (∀ i, exits level (t.take i) ≤ entries level (t.take i)) ∧ exits level t = entries level t := by
  have key := depth_counts level t 0 0
  simp only [Nat.zero_add] at key
  rw [← key]
  constructor
  · rintro ⟨s', h1, h2, h3⟩
    cases hd : depth level t 0 with
    | none =>
      obtain ⟨e, he⟩ := run_depth_none t ⟨level, [], [], []⟩ rfl hd
      rw [he] at h1; exact absurd h1 (by simp)
    | some d' =>
      obtain ⟨s2, x, y, g1, -, g3, -, g5, -⟩ := run_depth t ⟨level, [], [], []⟩ [] [] [] [] d' rfl rfl rfl hd
      rw [g1] at h1
      injection h1 with h1
      subst h1
      rw [h2] at g3
      have : x = [] := by simpa using g3.symm
      rw [this] at g5
      simp at g5
      rw [g5]
  · intro hd
    obtain ⟨s2, x, y, g1, -, g3, g4, g5, g6⟩ := run_depth t ⟨level, [], [], []⟩ [] [] [] [] 0 rfl rfl rfl hd
    have hx : x = [] := List.length_eq_zero_iff.mp g5
    have hy : y = [] := List.length_eq_zero_iff.mp g6
    exact ⟨s2, g1, by simpa [hx] using g3, by simpa [hy] using g4⟩

example : exits 3 [.enter .util "a" 0, .leave .util 1, .leave .util 2] = 2 ∧
    entries 3 [.enter .util "a" 0, .leave .util 1, .leave .util 2] = 1 := by decide

theorem functions_ok : ∀ F ∈ functions, F.code.ok = true := by
  have h : functions.all (fun F => F.code.ok) = true := by decide +kernel
  simpa using h

/-- **C35 (the functions of the library).** For each of the 674 logged functions listed in `functions` and each
way in which it can return (any branch taken, any number of loop iterations, any balanced calls inside), at
every log level and in every state of the logger: no underflow, the stacks are unchanged afterwards, and the
lines written are those of a forest of calls. -/
theorem C35_functions (F : Fn) (hF : F ∈ functions) (t : List Ev) (ht : Returns F.code t) (s : State) :
    ∃ f : Forest, t = f.events ∧ run t s = .ok { s with log := s.log ++ f.lines s.level s.calls } := by
  obtain ⟨f, hf⟩ := Code.ok_returns (functions_ok F hF) ht
  exact ⟨f, hf, by rw [hf]; exact C35_log f s⟩

/-- **C35 (exceptions).** If one of these functions is left by an exception, the logger does not underflow
and what was on the stacks stays there; the calls that were being executed remain on top. -/
theorem C35_exception (F : Fn) (hF : F ∈ functions) (t : List Ev) (ht : Exec F.code t .thr) (s : State) :
    ∃ s' stale staleTimes, run t s = .ok s' ∧ s'.calls = s.calls ++ stale ∧
      s'.times = s.times ++ staleTimes ∧ staleTimes.length = stale.length := by
  obtain ⟨k, hk⟩ := Code.ok_thr (functions_ok F hF) ht
  obtain ⟨s', x, y, h1, -, h3, h4, h5, h6⟩ := run_depth t s s.calls [] s.times [] _ (by simp) (by simp) rfl
    (depth_of_mk s.level t [] k hk)
  exact ⟨s', x, y, h1, h3, h4, by omega⟩

/-! ## Where the property fails -/

/-- An execution of a skeleton along given branches, with silent opaque statements and no loop iteration. -/
def follow : Code → List Bool → List Ev × Out × List Bool
  | .skip, l => ([], .norm, l)
  | .op, l => ([], .norm, l)
  | .enter k, l => ([.enter k "f" 0], .norm, l)
  | .leave k, l => ([.leave k 0], .norm, l)
  | .seq a b, l =>
    match follow a l with
    | (t, .norm, l) =>
      match follow b l with
      | (u, o, l) => (t ++ u, o, l)
    | r => r
  | .ite a b, l =>
    match l with
    | true :: l => follow a l
    | _ :: l => follow b l
    | [] => follow b []
  | .loop _, l => ([], .norm, l)
  | .ret, l => ([], .ret, l)
  | .thr, l => ([], .thr, l)
  | .brk, l => ([], .brk, l)

theorem follow_exec (c : Code) (l : List Bool) : Exec c (follow c l).1 (follow c l).2.1 := by
  induction c generalizing l with
  | skip => exact .skip
  | op => exact .op .nil
  | enter k => exact .enter k _ _
  | leave k => exact .leave k _
  | seq a b ih1 ih2 =>
    simp only [follow]
    have h1 := ih1 l
    rcases hf : follow a l with ⟨t, o, l'⟩
    rw [hf] at h1
    cases o with
    | norm => exact .seqNorm h1 (ih2 l')
    | ret => exact .seqStop h1 (fun h => nomatch h)
    | thr => exact .seqStop h1 (fun h => nomatch h)
    | brk => exact .seqStop h1 (fun h => nomatch h)
  | ite a b ih1 ih2 =>
    cases l with
    | nil => exact .iteRight (ih2 [])
    | cons x l =>
      cases x with
      | true => exact .iteLeft (ih1 l)
      | false => exact .iteRight (ih2 l)
  | loop a _ => exact .loopDone
  | ret => exact .ret
  | thr => exact .thr
  | brk => exact .brk

/-- The CG solver is in the list, and its skeleton has an execution that returns after one entry and one exit. -/
example : (⟨"src/equation/cg.cpp", 12, 86, "CG::monolish_CG", sk12⟩ : Fn) ∈ functions ∧
    Returns sk12 (follow sk12 []).1 ∧ (follow sk12 []).1.length = 2 := by
  refine ⟨by decide +kernel, ?_, by decide +kernel⟩
  have h := follow_exec sk12 []
  have h2 : (follow sk12 []).2.1 = .ret := by decide +kernel
  rw [h2] at h
  exact Or.inr h

/-- **C35 (violated).** Each of the 34 functions in `exceptions` has a path to a `return` on which entries and
exits do not match. -/
theorem C35_exceptions_violated (F : Fn) (hF : F ∈ exceptions) :
    ∃ t, Returns F.code t ∧ ¬ Balanced t := by
  have h : exceptions.all (fun F => decide ((follow F.code [true]).2.1 = .ret ∨ (follow F.code [true]).2.1 = .norm) &&
      decide (mk (follow F.code [true]).1 [] ≠ some [])) = true := by decide +kernel
  have h1 := List.all_eq_true.mp h F hF
  simp only [Bool.and_eq_true, decide_eq_true_eq] at h1
  refine ⟨(follow F.code [true]).1, ?_, ?_⟩
  · rcases h1.1 with h2 | h2
    · exact Or.inr (h2 ▸ follow_exec F.code [true])
    · exact Or.inl (h2 ▸ follow_exec F.code [true])
  · rw [balanced_iff]; exact h1.2

/-- `n` repetitions of a sequence. -/
def times (n : Nat) (t : List Ev) : List Ev := (List.replicate n t).flatten

theorem run_times_leak (t : List Ev) (names : List String) (clocks : List Int) (l : Nat)
    (h : ∀ s : State, s.level = l → ∃ log, run t s = .ok ⟨l, s.calls ++ names, s.times ++ clocks, log⟩)
    (n : Nat) (s : State) (hs : s.level = l) :
    ∃ s', run (times n t) s = .ok s' ∧ s'.level = l ∧
      s'.calls = s.calls ++ (List.replicate n names).flatten := by
  induction n generalizing s with
  | zero => exact ⟨s, rfl, hs, by simp⟩
  | succ n ih =>
    obtain ⟨log, h1⟩ := h s hs
    obtain ⟨s', h2, h3, h4⟩ := ih ⟨l, s.calls ++ names, s.times ++ clocks, log⟩ rfl
    refine ⟨s', ?_, h3, ?_⟩
    · have : times (n + 1) t = t ++ times n t := by simp [times, List.replicate_succ]
      rw [this, run_append, h1]; exact h2
    · rw [h4]; simp [List.replicate_succ]

/-- **C35 (violated by vector equality).** Comparing two vectors returns whether they are equal, and leaves the
logger as it was exactly if they are equal: each comparison of different vectors at log level 3 leaves one more
entry, without bound. -/
theorem C35_vector_equal_violated {α : Type} [DecidableEq α] (x y : List α) (t0 t1 : Int) :
    ((vectorEqual x y t0 t1).1 = decide (x = y)) ∧
    (x = y → Balanced (vectorEqual x y t0 t1).2) ∧
    (x ≠ y → ∀ (n : Nat) (s : State), s.level = 3 →
      ∃ s', run (times n (vectorEqual x y t0 t1).2) s = .ok s' ∧
        s'.calls = s.calls ++ List.replicate n "equal_core") := by
  refine ⟨?_, ?_, ?_⟩
  · unfold vectorEqual
    by_cases h : x = y
    · simp [h]
    · by_cases h2 : x.length = y.length <;> simp [h, h2]
  · rintro rfl
    exact ⟨.node .util "equal_core" t0 t1 .nil .nil, by simp [vectorEqual, Forest.events]⟩
  · intro h n s hs
    have ht : (vectorEqual x y t0 t1).2 = [.enter .util "equal_core" t0] := by
      unfold vectorEqual
      by_cases h2 : x.length = y.length <;> simp [h, h2]
    rw [ht]
    obtain ⟨s', h1, -, h3⟩ := run_times_leak [.enter .util "equal_core" t0] ["equal_core"] [t0] 3
      (fun s hs => ⟨s.log, by simp [run, step, enter, Kind.level, hs]⟩) n s hs
    exact ⟨s', h1, by rw [h3]; simp⟩

/-- **C35 (violated by `is_same_size`).** Asking whether two Dense matrices of different sizes have the same
size, at log level 3: from an empty logger this is undefined behaviour, and inside a logged function `f` it
removes the entry of `f`, so that `f`'s own exit is undefined behaviour. -/
theorem C35_same_size_violated (r1 c1 r2 c2 : Nat) (t0 t1 t2 : Int) (h : r1 ≠ r2 ∨ c1 ≠ c2) :
    (denseSameSize r1 c1 r2 c2 t0 t1 t2).1 = false ∧
    (∃ e, run (denseSameSize r1 c1 r2 c2 t0 t1 t2).2 ⟨3, [], [], []⟩ = .ub e) ∧
    ∀ (f : String) (a b : Int), ∃ e,
      run (.enter .func f a :: (denseSameSize r1 c1 r2 c2 t0 t1 t2).2 ++ [.leave .func b]) ⟨3, [], [], []⟩ = .ub e := by
  have hd : denseSameSize r1 c1 r2 c2 t0 t1 t2 =
      (false, [.enter .util "is_same_size" t0, .leave .util t1, .leave .util t2]) := by
    simp [denseSameSize, h]
  rw [hd]
  exact ⟨rfl, ⟨"times[-1]", rfl⟩, fun f a b => ⟨"times[-1]", rfl⟩⟩

/-- **C35.** For Dense matrices of the same size the call is balanced. -/
theorem C35_same_size_partial (r c : Nat) (t0 t1 t2 : Int) :
    (denseSameSize r c r c t0 t1 t2).1 = true ∧ Balanced (denseSameSize r c r c t0 t1 t2).2 :=
  ⟨by simp [denseSameSize], .node .util "is_same_size" t0 t2 .nil .nil, by simp [denseSameSize, Forest.events]⟩

/-- **C35 (violated by LinearOperator).** `is_same_structure` underflows exactly when the operators agree. -/
theorem C35_linop_structure_violated (r1 c1 r2 c2 : Nat) (t0 t1 t2 : Int) :
    ((linopSameStructure r1 c1 r2 c2 t0 t1 t2).1 = decide (r1 = r2 ∧ c1 = c2)) ∧
    ((∃ e, run (linopSameStructure r1 c1 r2 c2 t0 t1 t2).2 ⟨3, [], [], []⟩ = .ub e) ↔ r1 = r2 ∧ c1 = c2) := by
  by_cases h : r1 = r2 ∧ c1 = c2
  · have hd : linopSameStructure r1 c1 r2 c2 t0 t1 t2 =
        (true, [.enter .util "is_same_structure" t0, .leave .util t1, .leave .util t2]) := by
      simp [linopSameStructure, h]
    rw [hd]
    exact ⟨by simp [h], fun _ => h, fun _ => ⟨"times[-1]", rfl⟩⟩
  · have hd : linopSameStructure r1 c1 r2 c2 t0 t1 t2 =
        (false, [.enter .util "is_same_structure" t0, .leave .util t2]) := by
      simp only [linopSameStructure, h, if_false]; rfl
    rw [hd]
    refine ⟨by simp [h], ?_, fun h2 => absurd h2 h⟩
    rintro ⟨e, he⟩
    exact absurd he (by simp [run, step, enter, leave, Kind.level, Bind.bind, Res.bind])

/-- **C35 (violated by LinearOperator).** Each copy of a LinearOperator leaves one entry, without bound. -/
theorem C35_linop_copy_violated (t0 : Int) (n : Nat) (s : State) (hs : s.level = 3) :
    ∃ s', run (times n (linopCopy t0)) s = .ok s' ∧ s'.calls = s.calls ++ List.replicate n "LinearOperator" := by
  obtain ⟨s', h1, -, h3⟩ := run_times_leak (linopCopy t0) ["LinearOperator"] [t0] 3
    (fun s hs => ⟨s.log, by simp [linopCopy, run, step, enter, Kind.level, hs]⟩) n s hs
  exact ⟨s', h1, by rw [h3]; simp⟩

/-- **C35 (violated by exceptions).** Each rejected call of the CG solver (a matrix that is not square, the
exception is caught) leaves two entries on the stack at every log level from 1 on, and the lines of all later
calls carry the stale names. -/
theorem C35_throw_violated (t0 t1 : Int) (n : Nat) (s : State) (hs : 1 ≤ s.level) :
    ∃ s', run (times n (cgRejected t0 t1)) s = .ok s' ∧
      s'.calls = s.calls ++ (List.replicate n ["solve", "monolish_CG"]).flatten ∧
      ∀ (name : String) (a b : Int), ∃ s'',
        run (Forest.node .solver name a b .nil .nil).events s' = .ok s'' ∧
        s''.log = s'.log ++ [⟨.solver, s'.calls ++ [name], .start⟩, ⟨.solver, s'.calls ++ [name], .finish (b - a)⟩] := by
  obtain ⟨s', h1, h2, h3⟩ := run_times_leak (cgRejected t0 t1) ["solve", "monolish_CG"] [t0, t1] s.level
    (fun u hu => ⟨_, by
      have h0 : (1 : Nat) ≤ s.level := hs
      show Res.ok (enter .solver "monolish_CG" t1 (enter .solver "solve" t0 u)) = _
      simp [enter, Kind.level, h0, hu]
      rfl⟩) n s rfl
  refine ⟨s', h1, h3, fun name a b => ⟨_, C35_log _ s', ?_⟩⟩
  have : (1 : Nat) ≤ s'.level := by omega
  simp [Forest.lines, Logged, this]

/-! ## Threads -/

/-- **C35 (threads).** If two threads make balanced logger calls at the same time, and each logger call is
atomic (it is not: the vectors are not protected), then in every interleaving the logger does not underflow
and both stacks are as before at the end. -/
theorem C35_threads_partial (a b c : List Ev) (ha : Balanced a) (hb : Balanced b) (h : Shuffle a b c)
    (s : State) : ∃ s', run c s = .ok s' ∧ s'.calls = s.calls ∧ s'.times = s.times := by
  have da := depth_of_mk s.level a [] [] ((balanced_iff a).mp ha)
  have db := depth_of_mk s.level b [] [] ((balanced_iff b).mp hb)
  have dc := depth_shuffle s.level h _ _ _ _ da db
  obtain ⟨s', x, y, h1, -, h3, h4, h5, h6⟩ := run_depth c s s.calls [] s.times [] _ (by simp) (by simp) rfl dc
  have hx : x = [] := List.length_eq_zero_iff.mp h5
  have hy : y = [] := List.length_eq_zero_iff.mp h6
  exact ⟨s', h1, by simp [h3, hx], by simp [h4, hy]⟩

/-- **C35 (threads, violated).** But the lines are wrong: a function `f` that runs from 0 to 10 in one thread
and `g` from 1 to 20 in another are reported as `f/g` (duration 9) and `f` (duration 20). -/
theorem C35_threads_lines_violated :
    ∃ c, Shuffle (Forest.node .func "f" 0 10 .nil .nil).events (Forest.node .func "g" 1 20 .nil .nil).events c ∧
      run c ⟨2, [], [], []⟩ = .ok ⟨2, [], [], [⟨.func, ["f", "g"], .finish 9⟩, ⟨.func, ["f"], .finish 20⟩]⟩ :=
  ⟨[.enter .func "f" 0, .enter .func "g" 1, .leave .func 10, .leave .func 20],
    .left _ (.right _ (.left _ (.right _ .nil))), by decide +kernel⟩

end Log
end Verif
