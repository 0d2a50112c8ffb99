import Verif.Model.LoggerCode

/-!
# Lemmas about the logger: matching of entries and exits, and a checker for skeletons
-/

namespace Verif
namespace Log

@[simp] theorem run_nil (s : State) : run [] s = .ok s := rfl

theorem run_append (t u : List Ev) (s : State) : run (t ++ u) s = (run t s >>= run u) := by
  induction t generalizing s with
  | nil => rfl
  | cons e t ih =>
    show (step e s >>= fun s => run (t ++ u) s) = ((step e s >>= fun s => run t s) >>= run u)
    cases step e s with
    | ok v => exact ih v
    | throw _ => rfl
    | abort _ => rfl
    | ub _ => rfl

theorem logged_eq (level : Nat) (k : Kind) : Logged level k = decide (k.level ≤ level) := by
  cases k <;> rfl

/-- The log of a forest. -/
theorem run_forest (f : Forest) (s : State) :
    run f.events s = .ok { s with log := s.log ++ f.lines s.level s.calls } := by
  induction f generalizing s with
  | nil => simp [Forest.events, Forest.lines]
  | node k n ti to kids next ih1 ih2 =>
    have h1 : run (Forest.node k n ti to kids next).events s =
        run (kids.events ++ .leave k to :: next.events) (enter k n ti s) := rfl
    rw [h1, run_append, ih1]
    show run (.leave k to :: next.events) _ = _
    show (leave k to _ >>= run next.events) = _
    unfold leave enter
    by_cases hk : k.level ≤ s.level
    · simp only [hk, if_true]
      simp only [List.getLast?_append, List.getLast?_singleton, Option.some_or,
        List.append_eq_nil_iff, List.cons_ne_self, and_false, if_false, List.dropLast_concat]
      show run next.events _ = _
      rw [ih2]
      simp [Forest.lines, logged_eq, hk]
    · simp only [hk, if_false]
      show run next.events _ = _
      rw [ih2]
      simp [Forest.lines, logged_eq, hk]

/-- The kinds of the open calls after a sequence of logger calls, if every exit matches. -/
def mk : List Ev → List Kind → Option (List Kind)
  | [], s => some s
  | .enter k _ _ :: t, s => mk t (k :: s)
  | .leave k _ :: t, s =>
    match s with
    | [] => none
    | k' :: s => if k = k' then mk t s else none

theorem mk_append (t u : List Ev) (s : List Kind) : mk (t ++ u) s = (mk t s).bind (mk u) := by
  induction t generalizing s with
  | nil => rfl
  | cons e t ih =>
    cases e with
    | enter k n now => exact ih _
    | leave k now =>
      cases s with
      | nil => rfl
      | cons k' s =>
        show (if k = k' then mk (t ++ u) s else none) = Option.bind (if k = k' then mk t s else none) _
        by_cases h : k = k'
        · rw [if_pos h, if_pos h, ih]
        · rw [if_neg h, if_neg h]; rfl

theorem mk_forest (f : Forest) (s : List Kind) : mk f.events s = some s := by
  induction f generalizing s with
  | nil => rfl
  | node k n ti to kids next ih1 ih2 =>
    show mk (kids.events ++ .leave k to :: next.events) (k :: s) = _
    rw [mk_append, ih1]
    show (if k = k then mk next.events s else none) = _
    rw [if_pos rfl, ih2]

theorem mk_unfinished {t : List Ev} (h : Unfinished t) (s : List Kind) : ∃ s', mk t s = some (s' ++ s) := by
  induction h generalizing s with
  | forest f => exact ⟨[], mk_forest f s⟩
  | more f k n now _ ih =>
    obtain ⟨s', hs⟩ := ih (k :: s)
    refine ⟨s' ++ [k], ?_⟩
    rw [mk_append, mk_forest]
    show mk _ (k :: s) = _
    rw [hs]; simp

/-- A sequence that closes the open calls `S`: forests separated by the exits of `S`. -/
inductive Closes : List Kind → List Ev → Prop
  | nil (f : Forest) : Closes [] f.events
  | cons (f : Forest) (k : Kind) (now : Int) {S : List Kind} {t : List Ev} :
      Closes S t → Closes (k :: S) (f.events ++ .leave k now :: t)

theorem closes_of_mk (t : List Ev) (S : List Kind) (h : mk t S = some []) : Closes S t := by
  induction t generalizing S with
  | nil =>
    cases S with
    | nil => exact Closes.nil .nil
    | cons k S => simp [mk] at h
  | cons e t ih =>
    cases e with
    | enter k n now =>
      have h1 := ih (k :: S) h
      generalize hS : k :: S = S' at h1
      cases h1 with
      | nil f => exact absurd hS (by simp)
      | cons f k' now' h2 =>
        injection hS with hk hS
        subst hk hS
        cases h2 with
        | nil f' => exact Closes.nil (.node k n now now' f f')
        | cons f' k2 now2 h3 =>
          have := Closes.cons (.node k n now now' f f') k2 now2 h3
          simpa [Forest.events] using this
    | leave k now =>
      cases S with
      | nil => simp [mk] at h
      | cons k' S =>
        have h0 : (if k = k' then mk t S else none) = some [] := h
        by_cases hk : k = k'
        · rw [if_pos hk] at h0
          subst hk
          exact Closes.cons .nil k now (ih S h0)
        · rw [if_neg hk] at h0; exact absurd h0 (by simp)

theorem balanced_iff (t : List Ev) : Balanced t ↔ mk t [] = some [] := by
  constructor
  · rintro ⟨f, rfl⟩; exact mk_forest f []
  · intro h
    have := closes_of_mk t [] h
    cases this with
    | nil f => exact ⟨f, rfl⟩

/-! ## The checker -/

/-- Merge of the results of two branches. -/
def merge : Option (List Kind) → Option (List Kind) → Option (Option (List Kind))
  | none, r => some r
  | r, none => some r
  | some s, some s' => if s = s' then some (some s) else none

/-- `chk b c s = some r`: started with the open calls `s`, every exit in `c` matches, `return` happens
with no open call, `break`/`continue` with the open calls `b`, and if `c` ends normally the open calls are
`r` (`r = none`: it never ends normally). -/
def chk (b : List Kind) : Code → List Kind → Option (Option (List Kind))
  | .skip, s => some (some s)
  | .op, s => some (some s)
  | .enter k, s => some (some (k :: s))
  | .leave k, s =>
    match s with
    | [] => none
    | k' :: s => if k = k' then some (some s) else none
  | .seq a c, s =>
    match chk b a s with
    | none => none
    | some none => some none
    | some (some s') => chk b c s'
  | .ite a c, s =>
    match chk b a s, chk b c s with
    | some r, some r' => merge r r'
    | _, _ => none
  | .loop a, s =>
    match chk s a s with
    | some none => some (some s)
    | some (some s') => if s' = s then some (some s) else none
    | none => none
  | .ret, s => if s = [] then some none else none
  | .thr, _ => some none
  | .brk, s => if s = b then some none else none

/-- What the checker guarantees for one outcome. -/
def Good (b : List Kind) (s : List Kind) (r : Option (List Kind)) (t : List Ev) : Out → Prop
  | .norm => ∃ s', r = some s' ∧ mk t s = some s'
  | .ret => mk t s = some []
  | .brk => mk t s = some b
  | .thr => ∃ s', mk t s = some s'

theorem Good.mono {b s : List Kind} {r r' : Option (List Kind)} {t : List Ev} {o : Out}
    (h : Good b s r t o) (hr : ∀ s', r = some s' → r' = some s') : Good b s r' t o := by
  cases o with
  | norm => obtain ⟨s', h1, h2⟩ := h; exact ⟨s', hr s' h1, h2⟩
  | ret => exact h
  | brk => exact h
  | thr => exact h

theorem merge_some {r r' r'' : Option (List Kind)} (h : merge r r' = some r'') :
    (∀ s, r = some s → r'' = some s) ∧ (∀ s, r' = some s → r'' = some s) := by
  cases r with
  | none =>
    cases r' with
    | none => simp_all [merge]
    | some s' => simp [merge] at h; subst h; simp
  | some s =>
    cases r' with
    | none => simp [merge] at h; subst h; simp
    | some s' =>
      simp only [merge] at h
      split at h
      · rename_i hs; subst hs; simp at h; subst h; simp
      · simp at h

theorem chk_sound {c : Code} {t : List Ev} {o : Out} (h : Exec c t o) :
    ∀ (b s : List Kind) (r : Option (List Kind)), chk b c s = some r → Good b s r t o := by
  induction h with
  | skip => intro b s r h; simp [chk] at h; subst h; exact ⟨s, rfl, rfl⟩
  | op f => intro b s r h; simp [chk] at h; subst h; exact ⟨s, rfl, mk_forest f s⟩
  | opThr hu => intro b s r _; obtain ⟨s', hs⟩ := mk_unfinished hu s; exact ⟨_, hs⟩
  | enter k n now => intro b s r h; simp [chk] at h; subst h; exact ⟨k :: s, rfl, rfl⟩
  | leave k now =>
    intro b s r h
    cases s with
    | nil => simp [chk] at h
    | cons k' s =>
      simp only [chk] at h
      split at h
      · rename_i hk; simp at h; subst h
        exact ⟨s, rfl, by simp [mk, hk]⟩
      · simp at h
  | @seqNorm a c t u o _ _ ih1 ih2 =>
    intro b s r h
    simp only [chk] at h
    cases hc : chk b a s with
    | none => simp [hc] at h
    | some r1 =>
      obtain ⟨s', hr1, hm⟩ := ih1 b s r1 hc
      subst hr1
      simp only [hc] at h
      have h2 := ih2 b s' r h
      cases o with
      | norm => obtain ⟨s2, e1, e2⟩ := h2; exact ⟨s2, e1, by rw [mk_append, hm]; exact e2⟩
      | ret => show mk _ _ = _; rw [mk_append, hm]; exact h2
      | brk => show mk _ _ = _; rw [mk_append, hm]; exact h2
      | thr => obtain ⟨s2, e2⟩ := h2; exact ⟨s2, by rw [mk_append, hm]; exact e2⟩
  | @seqStop a c t o _ ho ih =>
    intro b s r h
    simp only [chk] at h
    cases hc : chk b a s with
    | none => simp [hc] at h
    | some r1 =>
      have h1 := ih b s r1 hc
      cases o with
      | norm => exact absurd rfl ho
      | ret => exact h1
      | brk => exact h1
      | thr => exact h1
  | @iteLeft a c t o _ ih =>
    intro b s r h
    simp only [chk] at h
    cases hc : chk b a s with
    | none => simp [hc] at h
    | some r1 =>
      cases hd : chk b c s with
      | none => simp [hc, hd] at h
      | some r2 =>
        simp only [hc, hd] at h
        exact (ih b s r1 hc).mono (merge_some h).1
  | @iteRight a c t o _ ih =>
    intro b s r h
    simp only [chk] at h
    cases hc : chk b a s with
    | none => simp [hc] at h
    | some r1 =>
      cases hd : chk b c s with
      | none => simp [hc, hd] at h
      | some r2 =>
        simp only [hc, hd] at h
        exact (ih b s r2 hd).mono (merge_some h).2
  | @loopDone a =>
    intro b s r h
    simp only [chk] at h
    split at h
    · simp at h; subst h; exact ⟨s, rfl, rfl⟩
    · split at h
      · simp at h; subst h; exact ⟨s, rfl, rfl⟩
      · simp at h
    · simp at h
  | @loopNext a t u o o' _ ho _ ih1 ih2 =>
    intro b s r h
    have h2 := ih2 b s r h
    have hm : mk t s = some s := by
      simp only [chk] at h
      cases hc : chk s a s with
      | none => simp [hc] at h
      | some r1 =>
        have h1 := ih1 s s r1 hc
        rcases ho with rfl | rfl
        · obtain ⟨s', e1, e2⟩ := h1
          subst e1
          simp only [hc] at h
          split at h
          · rename_i hs; rw [hs] at e2; exact e2
          · simp at h
        · exact h1
    cases o' with
    | norm => obtain ⟨s2, e1, e2⟩ := h2; exact ⟨s2, e1, by rw [mk_append, hm]; exact e2⟩
    | ret => show mk _ _ = _; rw [mk_append, hm]; exact h2
    | brk => show mk _ _ = _; rw [mk_append, hm]; exact h2
    | thr => obtain ⟨s2, e2⟩ := h2; exact ⟨s2, by rw [mk_append, hm]; exact e2⟩
  | @loopStop a t o _ ho ih =>
    intro b s r h
    simp only [chk] at h
    cases hc : chk s a s with
    | none => simp [hc] at h
    | some r1 =>
      have h1 := ih s s r1 hc
      rcases ho with rfl | rfl
      · exact h1
      · exact h1
  | ret =>
    intro b s r h
    simp only [chk] at h
    split at h
    · rename_i hs; subst hs; rfl
    · simp at h
  | thr => intro b s r _; exact ⟨s, rfl⟩
  | brk =>
    intro b s r h
    simp only [chk] at h
    split at h
    · rename_i hs; subst hs; rfl
    · simp at h

/-- The check for a whole function: started and ended without open calls. -/
def Code.ok (c : Code) : Bool :=
  match chk [] c [] with
  | some none => true
  | some (some []) => true
  | _ => false

theorem Code.ok_returns {c : Code} (h : c.ok = true) {t : List Ev} (ht : Returns c t) : Balanced t := by
  rw [balanced_iff]
  unfold Code.ok at h
  cases hc : chk [] c [] with
  | none => simp [hc] at h
  | some r =>
    rcases ht with ht | ht
    · obtain ⟨s', e1, e2⟩ := chk_sound ht [] [] r hc
      subst e1
      cases s' with
      | nil => exact e2
      | cons k s' => simp [hc] at h
    · exact chk_sound ht [] [] r hc

theorem Code.ok_thr {c : Code} (h : c.ok = true) {t : List Ev} (ht : Exec c t .thr) :
    ∃ s', mk t [] = some s' := by
  unfold Code.ok at h
  cases hc : chk [] c [] with
  | none => simp [hc] at h
  | some r => exact chk_sound ht [] [] r hc

/-! ## Depth of the stack at a log level -/

/-- The number of logged open calls at a log level; `none` if there is an exit without an entry. -/
def depth (level : Nat) : List Ev → Nat → Option Nat
  | [], d => some d
  | .enter k _ _ :: t, d => depth level t (if k.level ≤ level then d + 1 else d)
  | .leave k _ :: t, d =>
    if k.level ≤ level then
      match d with
      | 0 => none
      | d + 1 => depth level t d
    else depth level t d

/-- Number of open logged calls in a stack of kinds. -/
def vis (level : Nat) (s : List Kind) : Nat := (s.filter (fun k => decide (k.level ≤ level))).length

theorem vis_cons (level : Nat) (k : Kind) (s : List Kind) :
    vis level (k :: s) = if k.level ≤ level then vis level s + 1 else vis level s := by
  unfold vis
  by_cases h : k.level ≤ level <;> simp [h]

theorem depth_of_mk (level : Nat) (t : List Ev) (s s' : List Kind) (h : mk t s = some s') :
    depth level t (vis level s) = some (vis level s') := by
  induction t generalizing s with
  | nil => simp [mk] at h; subst h; rfl
  | cons e t ih =>
    cases e with
    | enter k n now =>
      show depth level t _ = _
      rw [← vis_cons]
      exact ih _ h
    | leave k now =>
      cases s with
      | nil => simp [mk] at h
      | cons k' s =>
        have h0 : (if k = k' then mk t s else none) = some s' := h
        by_cases hk : k = k'
        · rw [if_pos hk] at h0
          subst hk
          show (if k.level ≤ level then _ else _) = _
          rw [vis_cons]
          by_cases hv : k.level ≤ level
          · simp only [hv, if_true]; exact ih _ h0
          · simp only [hv, if_false]; exact ih _ h0
        · rw [if_neg hk] at h0; exact absurd h0 (by simp)

/-- The stack of the logger is determined by the depth: what is below is never touched. -/
theorem run_depth (t : List Ev) (s : State) (base extra : List String) (tb te : List Int) (d' : Nat)
    (hc : s.calls = base ++ extra) (ht : s.times = tb ++ te) (hl : te.length = extra.length)
    (h : depth s.level t extra.length = some d') :
    ∃ s' extra' te', run t s = .ok s' ∧ s'.level = s.level ∧ s'.calls = base ++ extra' ∧
      s'.times = tb ++ te' ∧ extra'.length = d' ∧ te'.length = d' := by
  induction t generalizing s extra te with
  | nil =>
    simp [depth] at h
    exact ⟨s, extra, te, rfl, rfl, hc, ht, h, by omega⟩
  | cons e t ih =>
    cases e with
    | enter k n now =>
      by_cases hk : k.level ≤ s.level
      · have h0 : depth s.level t (extra.length + 1) = some d' := by simpa [depth, hk] using h
        obtain ⟨s', x', t', h1, h2, h3, h4, h5, h6⟩ := ih (enter k n now s) (extra ++ [n]) (te ++ [now])
          (by simp [enter, hk, hc]) (by simp [enter, hk, ht]) (by simp [hl])
          (by simpa [enter, hk] using h0)
        exact ⟨s', x', t', h1, by simpa [enter, hk] using h2, h3, h4, h5, h6⟩
      · have h0 : depth s.level t extra.length = some d' := by simpa [depth, hk] using h
        have he : enter k n now s = s := by simp [enter, hk]
        obtain ⟨s', x', t', h1, h2⟩ := ih s extra te hc ht hl h0
        refine ⟨s', x', t', ?_, h2⟩
        show run t (enter k n now s) = _
        rw [he]; exact h1
    | leave k now =>
      by_cases hk : k.level ≤ s.level
      · simp only [depth, hk, if_true] at h
        cases hd : extra.length with
        | zero => rw [hd] at h; simp at h
        | succ d =>
          rw [hd] at h
          simp only at h
          rcases List.eq_nil_or_concat extra with rfl | ⟨x, n, rfl⟩
          · simp at hd
          · rcases List.eq_nil_or_concat te with rfl | ⟨y, m, rfl⟩
            · simp at hl
            · simp only [List.concat_eq_append] at *
              simp only [List.length_append, List.length_singleton, Nat.add_right_cancel_iff] at hd hl
              obtain ⟨s', x', t', h1, h2, h3, h4, h5, h6⟩ := ih
                { s with
                  calls := base ++ x
                  times := tb ++ y
                  log := s.log ++ [⟨k, s.calls, .finish (now - m)⟩] } x y rfl rfl hl
                (by rw [hd]; exact h)
              refine ⟨s', x', t', ?_, h2, h3, h4, h5, h6⟩
              show (leave k now s >>= run t) = _
              rw [← h1]
              unfold leave
              rw [ht, hc]
              simp [hk, ← List.append_assoc, List.getLast?_append]
      · have h0 : depth s.level t extra.length = some d' := by simpa [depth, hk] using h
        have he : leave k now s = .ok s := by simp [leave, hk]
        obtain ⟨s', x', t', h1, h2⟩ := ih s extra te hc ht hl h0
        refine ⟨s', x', t', ?_, h2⟩
        show (leave k now s >>= run t) = _
        rw [he]; exact h1

theorem run_depth_none (t : List Ev) (s : State) (hl : s.times.length = s.calls.length)
    (h : depth s.level t s.calls.length = none) : ∃ e, run t s = .ub e := by
  induction t generalizing s with
  | nil => simp [depth] at h
  | cons e t ih =>
    cases e with
    | enter k n now =>
      apply ih (enter k n now s)
      · by_cases hk : k.level ≤ s.level <;> simp [enter, hk, hl]
      · by_cases hk : k.level ≤ s.level
        · simpa [enter, hk, depth] using h
        · simpa [enter, hk, depth] using h
    | leave k now =>
      by_cases hk : k.level ≤ s.level
      · simp only [depth, hk, if_true] at h
        rcases hc : s.times.getLast? with _ | m
        · refine ⟨"times[-1]", ?_⟩
          show (leave k now s >>= run t) = _
          simp only [leave, hk, if_true, hc]; rfl
        · have hne : s.times ≠ [] := by intro h0; rw [h0] at hc; simp at hc
          have hpos : 0 < s.times.length := List.length_pos_iff.mpr hne
          have hcne : s.calls ≠ [] := List.ne_nil_of_length_pos (by omega)
          have hs : leave k now s = .ok
              { s with
                calls := s.calls.dropLast
                times := s.times.dropLast
                log := s.log ++ [⟨k, s.calls, .finish (now - m)⟩] } := by
            simp only [leave, hk, if_true, hc, if_neg hcne]
          obtain ⟨e, he⟩ := ih
              { s with
                calls := s.calls.dropLast
                times := s.times.dropLast
                log := s.log ++ [⟨k, s.calls, .finish (now - m)⟩] } (by simp [hl])
              (by
                simp only [List.length_dropLast]
                cases hd : s.calls.length with
                | zero => omega
                | succ d => rw [hd] at h; simpa using h)
          refine ⟨e, ?_⟩
          show (leave k now s >>= run t) = _
          rw [hs]; exact he
      · have he : leave k now s = .ok s := by simp [leave, hk]
        have h0 : depth s.level t s.calls.length = none := by simpa [depth, hk] using h
        obtain ⟨e, h1⟩ := ih s hl h0
        refine ⟨e, ?_⟩
        show (leave k now s >>= run t) = _
        rw [he]; exact h1

theorem depth_shuffle (level : Nat) {a b c : List Ev} (h : Shuffle a b c) (x y x' y' : Nat)
    (ha : depth level a x = some x') (hb : depth level b y = some y') :
    depth level c (x + y) = some (x' + y') := by
  induction h generalizing x y with
  | nil => simp [depth] at *; omega
  | left e _ ih =>
    cases e with
    | enter k n now =>
      by_cases hk : k.level ≤ level
      · simp only [depth, hk, if_true] at *
        have := ih (x + 1) y ha hb
        rwa [Nat.add_right_comm] at this
      · simp only [depth, hk, if_false] at *
        exact ih x y ha hb
    | leave k now =>
      by_cases hk : k.level ≤ level
      · simp only [depth, hk, if_true] at *
        cases x with
        | zero => simp at ha
        | succ x => simp only [Nat.succ_add] at *; exact ih x y ha hb
      · simp only [depth, hk, if_false] at *
        exact ih x y ha hb
  | right e _ ih =>
    cases e with
    | enter k n now =>
      by_cases hk : k.level ≤ level
      · simp only [depth, hk, if_true] at *
        have := ih x (y + 1) ha hb
        rwa [← Nat.add_assoc] at this
      · simp only [depth, hk, if_false] at *
        exact ih x y ha hb
    | leave k now =>
      by_cases hk : k.level ≤ level
      · simp only [depth, hk, if_true] at *
        cases y with
        | zero => simp at hb
        | succ y => exact ih x y ha hb
      · simp only [depth, hk, if_false] at *
        exact ih x y ha hb

end Log
end Verif
