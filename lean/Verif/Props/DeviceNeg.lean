import Verif.Props.Device

/-!
C83, C84: what the rules for portable programs exclude, and the copy constructors.
-/

namespace Verif.Dev

open Verif.Spec.Device

variable {α : Type} {U : Nat → List (Nat × Nat)}

/-- **C84 (copy constructors).** In any state a program can reach, copying an object into fresh storage succeeds;
the copy is on the device exactly if the source is; host values are copied to the host and device values to the
device, whether or not the two differ; nothing else changes. -/
theorem C84_copy (hU : Separate U) (host : Nat → α) (p : List (Op α)) (hp : AllKnown U p) (s : St α)
    (h : run true (start host) p = .ok s) (o src : Obj) (ho : Known U o) (hs : Known U src)
    (hne : o.flag ≠ src.flag) (hfresh : s.flags o.flag = false) (from_ : Nat → Nat)
    (hfrom : ∀ a, o.covers a → src.covers (from_ a)) :
    ∃ t, copyTo s o src from_ = .ok t ∧ t.flags = upd s.flags o.flag (s.flags src.flag) ∧
      (∀ a, t.host a = if o.covers a then s.host (from_ a) else s.host a) ∧
      (s.flags src.flag = true → ∀ a, o.covers a → devMem t a = devMem s (from_ a)) ∧
      (∀ f a, f ≠ o.flag → s.flags f = true → cov (U f) a → devMem t a = devMem s a) := by
  have hg : Good U s := by
    rcases run_good hU p (start host) (good_start U host) hp with ⟨t, e, g⟩ | ⟨m, e⟩ | ⟨m, e⟩
    · rw [h] at e; cases e; exact g
    · rw [h] at e; cases e
    · rw [h] at e; cases e
  have cv : ∀ a, o.covers a ↔ cov (U o.flag) a := fun a => by rw [covers_iff, ho]
  cases hf : s.flags src.flag with
  | false =>
    refine ⟨{ s with host := fun a => if o.covers a then s.host (from_ a) else s.host a }, ?_, ?_, fun _ => rfl,
      fun hc => absurd hc (by simp), fun f a _ hon ha => ?_⟩
    · unfold copyTo; rw [hf]; rfl
    · exact (flags_self _ _ hfresh).symm
    · obtain ⟨q, ⟨f', h1, h2, h0⟩, p1, p2⟩ := on_of_cov hon ha
      obtain ⟨r, hr, d1, d2⟩ := hg.all q ⟨f', h1, h2, h0⟩ h0
      refine devMem_same (s := s) ?_ hg.apart hr (a := a) (by omega) (by omega)
      rfl
  | true =>
    obtain ⟨s1, e1, g1, fl1, ho1, dm1⟩ := send_spec hU hg ho
    have hsrc1 : s1.flags src.flag = true := by rw [fl1, upd_ne _ hne.symm]; exact hf
    have ho1f : s1.flags o.flag = true := by rw [fl1, upd_self]
    obtain ⟨s2, e2, g2, fl2, k1, _⟩ := compute_spec (y := o) (xs := [src]) (g := fun m a => m (from_ a)) hU g1
      (fun x hx => by
        rcases List.mem_cons.mp hx with rfl | hx
        · exact ho
        · rw [List.mem_singleton] at hx; subst hx; exact hs)
      (fun x hx => by
        rcases List.mem_cons.mp hx with rfl | hx
        · rfl
        · rw [List.mem_singleton] at hx; subst hx; rw [hsrc1, ho1f])
    obtain ⟨hh, hd⟩ := k1 ho1f
    have hdev : ∀ f a, s1.flags f = true → cov (U f) a →
        devMem { s2 with host := fun a => if o.covers a then s2.host (from_ a) else s2.host a } a = devMem s2 a := by
      intro f a hon ha
      obtain ⟨q, ⟨f', h1, h2, h0⟩, p1, p2⟩ := on_of_cov (fl := s2.flags) (by rw [fl2]; exact hon) ha
      obtain ⟨r, hr, d1, d2⟩ := g2.all q ⟨f', h1, h2, h0⟩ h0
      refine devMem_same (s := s2) ?_ g2.apart hr (a := a) (by omega) (by omega)
      rfl
    have hnc : ∀ f a, f ≠ o.flag → cov (U f) a → ¬ o.covers a := fun f a hfo ha => by
      rw [cv]; exact not_cov_of_ne hU hfo ha
    refine ⟨{ s2 with host := fun a => if o.covers a then s2.host (from_ a) else s2.host a }, ?_, ?_, ?_, ?_, ?_⟩
    · unfold copyTo
      rw [hf]
      simp only [if_true]
      rw [e1]
      simp only [Res.ok_bind]
      rw [e2]
      rfl
    · show s2.flags = _
      rw [fl2, fl1]
    · intro a
      show (if o.covers a then s2.host (from_ a) else s2.host a) = _
      rw [hh, ho1]
    · intro _ a ha
      rw [hdev o.flag a ho1f ((cv a).mp ha), hd o.flag a ho1f ((cv a).mp ha), if_pos ha, dm1,
        if_neg (hnc src.flag _ hne.symm (by rw [← hs]; exact hfrom a ha))]
    · intro f a hfo hon ha
      have hon1 : s1.flags f = true := by rw [fl1, upd_ne _ hfo]; exact hon
      rw [hdev f a hon1 ha, hd f a hon1 ha, if_neg (hnc f a hfo ha), dm1, if_neg (hnc f a hfo ha)]

/-- **C84 (moved objects).** An object that got all of `t` by `move` is one of the program's objects: the theorems
above apply to it. -/
theorem C84_moved_known (t : Obj) (b l : Nat) (hb : t.bufs = [(b, l)]) (hk : Known U t) :
    Known U (moved t 0 l) ∧ (moved t 0 l).flag = t.flag ∧ ∀ a, (moved t 0 l).covers a ↔ t.covers a := by
  have e : (moved t 0 l).bufs = t.bufs := by unfold moved; rw [hb]; rfl
  refine ⟨?_, rfl, fun a => ?_⟩
  · show (moved t 0 l).bufs = U t.flag
    rw [e]; exact hk
  · rw [covers_iff, covers_iff, e]

/-- **C84 (destruction).** In any state a program can reach, destroying an object that created its storage leaves
none of its addresses mapped on the device (so the addresses can be used again), and changes neither the host
memory nor any other object. -/
theorem C84_destroy (hU : Separate U) (host : Nat → α) (p : List (Op α)) (hp : AllKnown U p) (s : St α)
    (h : run true (start host) p = .ok s) (o : Obj) (ho : Known U o) (hown : o.owner = true) :
    (∀ r ∈ (destroy s o).regions, ∀ a, o.covers a → ¬ (r.base ≤ a ∧ a < r.base + r.len)) ∧
      (destroy s o).host = s.host ∧
      ∀ x, Known U x → x.flag ≠ o.flag → (destroy s o).flags x.flag = s.flags x.flag ∧
        ∀ a, x.covers a → value (destroy s o) x a = value s x a := by
  have hg : Good U s := by
    rcases run_good hU p (start host) (good_start U host) hp with ⟨t, e, g⟩ | ⟨m, e⟩ | ⟨m, e⟩
    · rw [h] at e; cases e; exact g
    · rw [h] at e; cases e
    · rw [h] at e; cases e
  have e : destroy s o = deviceFree s o := by unfold destroy; rw [hown]; rfl
  rw [e]
  obtain ⟨g1, g2, g3, g4⟩ := free_spec hU hg ho
  refine ⟨?_, g3, fun x hx hne => ?_⟩
  · rintro r hr a ha ⟨r1, r2⟩
    obtain ⟨⟨f, hfon, hfm, _⟩, _, _⟩ := g1.only r hr
    have hne : f ≠ o.flag := by
      intro e; subst e; rw [g2, upd_self] at hfon; exact absurd hfon (by simp)
    rw [covers_iff, ho] at ha
    exact not_cov_of_ne hU hne ⟨_, hfm, r1, r2⟩ ha
  · have hfl : (deviceFree s o).flags x.flag = s.flags x.flag := by rw [g2, upd_ne _ hne]
    refine ⟨hfl, fun a ha => ?_⟩
    unfold value
    rw [hfl]
    cases hf : s.flags x.flag with
    | true =>
      rw [if_pos rfl, if_pos rfl]
      exact g4 x.flag a hne hf (by rw [covers_iff, hx] at ha; exact ha)
    | false =>
      simp only [Bool.false_eq_true, if_false]
      rw [g3]

/-! ### A concrete program, and what happens outside the rules -/

/-- two vectors `x` (address 10, two elements) and `y` (address 20, two elements) -/
def U2 : Nat → List (Nat × Nat) := fun f => if f = 0 then [(10, 2)] else if f = 1 then [(20, 2)] else []

def ox : Obj := { bufs := [(10, 2)], flag := 0, owner := true }
def oy : Obj := { bufs := [(20, 2)], flag := 1, owner := true }

theorem separate_U2 : Separate U2 := by
  constructor
  · intro f
    unfold U2
    split
    · simp
    · split <;> simp
  · intro f g hfg p hp q hq
    unfold U2 at hp hq
    unfold Apart
    split at hp <;> split at hq <;> first | (split at hp <;> split at hq) | split at hp | split at hq | skip
    all_goals simp at hp hq
    all_goals subst_vars
    all_goals simp_all

/-- `axpy(2, x, y)` -/
def axpy2 : (Nat → Nat) → Nat → Nat := fun m a => 2 * m (a - 10) + m a

theorem local_axpy2 : Local oy [ox] axpy2 := by
  intro m m' h a ha
  obtain ⟨bl, hbl, h1, h2⟩ := ha
  simp only [oy, List.mem_singleton] at hbl
  subst hbl
  unfold axpy2
  rw [h oy (by simp) a ⟨(20, 2), by simp [oy], h1, h2⟩,
    h ox (by simp) (a - 10) ⟨(10, 2), by simp [ox], by dsimp only at h1; omega, by dsimp only at h2; omega⟩]

/-- send both, compute on the device twice with an intermediate copy to the host, receive -/
def prog1 : List (Op Nat) :=
  [.set ox 10 3, .send ox, .send oy, .compute oy [ox] axpy2, .nonfreeRecv oy, .compute oy [ox] axpy2, .recv oy,
   .deviceFree ox, .set oy 21 7]

theorem portable_prog1 : Portable U2 (fun _ => false) (fun _ => false) prog1 := by
  unfold prog1
  refine ⟨rfl, rfl, ⟨(10, 2), by simp [ox], by decide⟩, rfl, fun h => ?_, rfl, fun h => ?_,
    ⟨fun o ho => ?_, local_axpy2, rfl, ⟨fun o ho => ?_, local_axpy2, rfl, rfl, fun h => ?_, rfl, ?_, ⟨(20, 2), by simp [oy], by decide⟩, trivial⟩⟩⟩
  · exact absurd h (by simp)
  · exact absurd h (by decide)
  · simp only [List.mem_cons, List.not_mem_nil, or_false] at ho
    rcases ho with rfl | rfl <;> exact ⟨rfl, rfl⟩
  · simp only [List.mem_cons, List.not_mem_nil, or_false] at ho
    rcases ho with rfl | rfl <;> exact ⟨rfl, rfl⟩
  · decide
  · decide

/-- C83 applies to `prog1`: with x = (3, 1) and y = (1, 1) at the start, y = (13, 7) in both builds -/
example : ∃ s m, run true (start fun _ => 1) prog1 = .ok s ∧ run false (start fun _ => 1) prog1 = .ok m ∧
    value s oy 20 = 13 ∧ m.host 20 = 13 ∧ value s oy 21 = 7 ∧ m.host 21 = 7 :=
  ⟨_, _, rfl, rfl, by decide, by decide, by decide, by decide⟩

example : ∀ s, run true (start fun _ => 1) prog1 = .ok s → ∃ m, run false (start fun _ => 1) prog1 = .ok m ∧
    ∀ a, oy.covers a → s.host a = m.host a := fun s h => by
  refine C83_received separate_U2 _ prog1 portable_prog1 s h oy rfl ?_
  cases h
  decide

/-- C84 applies to `prog1` too (and to programs that break the rules, such as those below) -/
example : AllKnown U2 prog1 :=
  ⟨rfl, rfl, rfl, fun o ho => by
    simp only [List.mem_cons, List.not_mem_nil, or_false] at ho
    rcases ho with rfl | rfl <;> rfl, rfl, fun o ho => by
    simp only [List.mem_cons, List.not_mem_nil, or_false] at ho
    rcases ho with rfl | rfl <;> rfl, rfl, rfl, rfl, trivial⟩

/-- C84_copy: `y` fresh, copied from `x`, which is on the device and has been changed there -/
example : ∃ s, run true (start fun a => a) [.send ox, .compute ox [] fun m a => 100 + m a] = .ok s ∧
    ∃ t, copyTo s oy ox (fun a => a - 10) = .ok t ∧ t.flags oy.flag = true ∧
      devMem t 20 = 110 ∧ t.host 20 = 10 ∧ devMem t 10 = 110 ∧ t.host 10 = 10 :=
  ⟨_, rfl, _, rfl, by decide, by decide, by decide, by decide, by decide⟩

/-- **C83 (negation: `send` again).** A second `send` of an object that is on the device copies the old host
values over the results computed there: the program without the rule on `send` gives different values in the
two builds. -/
theorem C83_send_twice_loses : ∃ s m,
    run true (start fun _ => 1) [.send ox, .send oy, .compute oy [ox] axpy2, .send oy, .recv oy] = .ok s ∧
    run false (start fun _ => 1) [.send ox, .send oy, .compute oy [ox] axpy2, .send oy, .recv oy] = .ok m ∧
    s.host 20 = 1 ∧ m.host 20 = 3 :=
  ⟨_, _, rfl, rfl, by decide, by decide⟩

/-- **C83 (negation: `device_free`).** Results that exist only on the device are lost. -/
theorem C83_free_loses : ∃ s m,
    run true (start fun _ => 1) [.send ox, .send oy, .compute oy [ox] axpy2, .deviceFree oy] = .ok s ∧
    run false (start fun _ => 1) [.send ox, .send oy, .compute oy [ox] axpy2, .deviceFree oy] = .ok m ∧
    s.host 20 = 1 ∧ m.host 20 = 3 :=
  ⟨_, _, rfl, rfl, by decide, by decide⟩

/-- **C83 (negation: mixed sides).** Without the rule on computing functions the GPU build stops at an
assertion where the CPU build computes. -/
theorem C83_mixed_aborts :
    run true (start fun _ => 1) [.send ox, .compute oy [ox] axpy2] = .abort "assert" ∧
    ∃ m, run false (start fun _ => 1) [.send ox, .compute oy [ox] axpy2] = .ok m ∧ m.host 20 = 3 :=
  ⟨rfl, _, rfl, by decide⟩

/-- `t`: a tensor of four elements at address 30; `v`: a matrix that got the middle two by `v.move(view)` -/
def ot : Obj := { bufs := [(30, 4)], flag := 0, owner := true }
def ov : Obj := moved ot 1 2

/-- **C84 (negation: `recv` through a part).** `v` shares the flag of `t` but covers only a part: receiving `v`
frees the device copy of all of `t` and brings back only the part, without any error; the rest of the results
is lost, and a later `t.recv()` does nothing. -/
theorem C84_part_recv_loses : ∃ s m,
    run true (start fun _ => 1) [.send ot, .compute ot [] fun m a => 5 * m a, .recv ov, .recv ot] = .ok s ∧
    run false (start fun _ => 1) [.send ot, .compute ot [] fun m a => 5 * m a, .recv ov, .recv ot] = .ok m ∧
    s.host 31 = 5 ∧ s.host 30 = 1 ∧ m.host 30 = 5 :=
  ⟨_, _, rfl, rfl, by decide, by decide, by decide⟩

/-- **C84 (negation: `send` through a part).** Sending `v` sets the flag `t` shares although only a part of `t`
is on the device; the next computation on `t` is undefined. -/
theorem C84_part_send_ub :
    run true (start fun _ => 1) [.send ov, .compute ot [] fun m a => 5 * m a] =
      .ub "section not present on the device" := rfl

/-- **C84 (negation: destruction of the source of a `move`).** `w.move(t)` shares storage and flag; when `t` is
destroyed while on the device its destructor frees the device copy, and the results `w` refers to are lost. -/
theorem C84_owner_destroyed_loses : ∃ s,
    run true (start fun _ => 1) [.send ot, .compute (moved ot 0 4) [] fun m a => 5 * m a] = .ok s ∧
    value s (moved ot 0 4) 30 = 5 ∧ (recv (destroy s ot) (moved ot 0 4)).host 30 = 1 :=
  ⟨_, rfl, by decide, by decide⟩

/-- **C84 (negation: `move` into an object that is on the device).** The previous storage of `y` stays mapped:
`y` now has the flag of `t` and its destructor frees nothing. When a new object `z` gets the same address,
`z.send()` finds the old region and copies nothing: kernels compute with the old values, and `z.recv()` does
not bring anything back. -/
theorem C84_moved_into_leaks :
    let z : Obj := { bufs := [(20, 2)], flag := 7, owner := true }
    ∃ s s' : St Nat, run true (start fun _ => 1) [.send oy] = .ok s ∧
      run true (destroy s (moved ot 0 4)) [.set z 20 9, .send z] = .ok s' ∧
      s'.host 20 = 9 ∧ devMem s' 20 = 1 ∧
      ∃ s'' : St Nat, run true s' [.compute z [] (fun m a => 5 * m a), .recv z] = .ok s'' ∧ s''.host 20 = 9 :=
  ⟨_, _, rfl, rfl, by decide, by decide, _, rfl, by decide⟩

end Verif.Dev
