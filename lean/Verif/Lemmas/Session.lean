import Verif.Spec.SessionSpec
import Verif.Props.History

/-!
Lemmas for C98: the settings of the objects of a world follow the statements executed so far.
-/

namespace Verif.Solver

open Verif.Spec

variable {α : Type} {N : Num α} {opens : String → Bool} {tol0 omega0 : α}

theorem inForce_snoc (ops : List (Op α)) (op : Op α) (i : Nat) :
    inForce tol0 omega0 (ops ++ [op]) i = Settings.after i (inForce tol0 omega0 ops i) op := by
  simp [inForce]

theorem made_snoc (ops : List (Op α)) (op : Op α) :
    made (ops ++ [op]) = made ops ++ made [op] := by
  simp [made, List.filterMap_append]

theorem run_snoc (w : World α) (ops : List (Op α)) (op : Op α) :
    w.run N opens tol0 omega0 (ops ++ [op]) =
      (do let w ← w.run N opens tol0 omega0 ops
          let p ← w.step N opens tol0 omega0 op
          .ok p.1) := by
  induction ops generalizing w with
  | nil =>
    show (do let p ← w.step N opens tol0 omega0 op; (World.run N opens tol0 omega0 p.1 [])) = _
    rfl
  | cons a ops ih =>
    show (do let p ← w.step N opens tol0 omega0 a; World.run N opens tol0 omega0 p.1 (ops ++ [op])) = _
    rw [World.run]
    cases w.step N opens tol0 omega0 a with
    | ok p => exact ih p.1
    | throw m => rfl
    | abort m => rfl
    | ub m => rfl

/-- the stream of an object is what the settings say -/
def DestOk (opens : String → Bool) (files : List (File α)) (o : Obj α) : Dest → Prop
  | .unset => o.sink = .unset ∧ o.named = false ∧ o.print = false
  | .stdout => o.sink = .cout
  | .file name => ∃ id f, o.sink = .file id ∧ files[id]? = some f ∧ f.name = name ∧
      f.good = opens name ∧ f.deleted = false

/-- the fields of an object are what the settings say -/
structure Matches (opens : String → Bool) (files : List (File α)) (o : Obj α) (s : Settings α) : Prop where
  lib : o.lib = s.lib
  tol : o.tol = s.tol
  miniter : o.miniter = s.miniter
  maxiter : o.maxiter = s.maxiter
  residMethod : o.residMethod = s.residMethod
  omega : o.omega = s.omega
  print : o.print = s.print
  create : o.create = s.create
  apply : o.apply = s.apply
  dest : DestOk opens files o s.dest

/-- object `i` is alive and equal to `o` -/
def World.Has (w : World α) (i : Nat) (o : Obj α) : Prop := w.objs[i]? = some (some o)

theorem World.obj_ok {w : World α} {i : Nat} {o : Obj α} : w.obj i = .ok o ↔ w.Has i o := by
  unfold World.obj World.Has
  rcases w.objs[i]? with _ | _ | p <;> simp

/-- what the statements executed so far say about a world -/
structure Good (opens : String → Bool) (tol0 omega0 : α) (ops : List (Op α)) (w : World α) : Prop where
  count : w.objs.length = (made ops).length
  live : ∀ i o, w.Has i o → (made ops)[i]? = some o.kind ∧
    Matches opens w.files o (inForce tol0 omega0 ops i)
  fresh : ∀ i, w.objs.length ≤ i → inForce tol0 omega0 ops i = { tol := tol0, omega := omega0 }
  own : ∀ i j p q id, w.Has i p → w.Has j q → p.sink = .file id → q.sink = .file id → i = j
  alive : ∀ i, i < w.objs.length → Op.destroy i ∉ ops → ∃ o, w.Has i o

theorem World.Has.lt {w : World α} {i : Nat} {o : Obj α} (h : w.Has i o) : i < w.objs.length :=
  (List.getElem?_eq_some_iff.1 h).1

theorem World.has_put {w : World α} {i j : Nat} {o p : Obj α} (hi : i < w.objs.length) :
    (w.put i o).Has j p ↔ (i = j ∧ p = o) ∨ (i ≠ j ∧ w.Has j p) := by
  unfold World.Has World.put
  rw [List.getElem?_set]
  by_cases h : i = j
  · subst h
    simp [hi, eq_comm]
  · simp [h]

/-- a statement that only changes fields of one object -/
theorem Good.put {ops : List (Op α)} {op : Op α} {w : World α} (g : Good opens tol0 omega0 ops w)
    {i : Nat} {o o' : Obj α} (ho : w.Has i o) (hk : o'.kind = o.kind)
    (hm : Matches opens w.files o' (inForce tol0 omega0 (ops ++ [op]) i))
    (hsink : ∀ id, o'.sink = .file id → o.sink = .file id)
    (hmade : made [op] = [])
    (hother : ∀ j, j ≠ i → inForce tol0 omega0 (ops ++ [op]) j = inForce tol0 omega0 ops j) :
    Good opens tol0 omega0 (ops ++ [op]) (w.put i o') := by
  have hlen : (w.put i o').objs.length = w.objs.length := by simp [World.put]
  refine ⟨?_, ?_, ?_, ?_, ?_⟩
  · rw [hlen, made_snoc, hmade, List.append_nil, g.count]
  · intro j p hp
    rw [World.has_put ho.lt] at hp
    rw [made_snoc, hmade, List.append_nil]
    rcases hp with ⟨rfl, rfl⟩ | ⟨hij, hp⟩
    · exact ⟨by rw [(g.live _ _ ho).1, hk], hm⟩
    · rw [hother j (Ne.symm hij)]
      exact g.live j p hp
  · intro j hj
    rw [hlen] at hj
    rw [hother j (by have := ho.lt; omega)]
    exact g.fresh j hj
  · intro j k p q id hp hq h1 h2
    rw [World.has_put ho.lt] at hp hq
    rcases hp with ⟨rfl, rfl⟩ | ⟨hij, hp⟩ <;> rcases hq with ⟨rfl, rfl⟩ | ⟨hik, hq⟩
    · rfl
    · exact g.own _ _ _ _ id ho hq (hsink id h1) h2
    · exact g.own _ _ _ _ id hp ho h1 (hsink id h2)
    · exact g.own _ _ _ _ id hp hq h1 h2
  · intro j hj hd
    rw [hlen] at hj
    obtain ⟨p, hp⟩ := g.alive j hj (fun h => hd (List.mem_append_left _ h))
    by_cases h : i = j
    · exact ⟨o', (World.has_put ho.lt).2 (.inl ⟨h, rfl⟩)⟩
    · exact ⟨p, (World.has_put ho.lt).2 (.inr ⟨h, hp⟩)⟩

/-- a statement that changes no setting -/
theorem Good.same {ops : List (Op α)} {op : Op α} {w : World α} (g : Good opens tol0 omega0 ops w)
    (hmade : made [op] = [])
    (hother : ∀ j, inForce tol0 omega0 (ops ++ [op]) j = inForce tol0 omega0 ops j) :
    Good opens tol0 omega0 (ops ++ [op]) w := by
  refine ⟨?_, ?_, ?_, g.own, ?_⟩
  · rw [made_snoc, hmade, List.append_nil, g.count]
  · intro j p hp
    rw [made_snoc, hmade, List.append_nil, hother]
    exact g.live j p hp
  · intro j hj
    rw [hother]
    exact g.fresh j hj
  · intro j hj hd
    exact g.alive j hj (fun h => hd (List.mem_append_left _ h))

theorem Matches.of_fields {files : List (File α)} {o o' : Obj α} {s : Settings α}
    (h : Matches opens files o s) (h1 : o'.lib = o.lib) (h2 : o'.tol = o.tol) (h3 : o'.miniter = o.miniter)
    (h4 : o'.maxiter = o.maxiter) (h5 : o'.residMethod = o.residMethod) (h6 : o'.omega = o.omega)
    (h7 : o'.print = o.print) (h8 : o'.create = o.create) (h9 : o'.apply = o.apply)
    (h10 : o'.sink = o.sink) (h11 : o'.named = o.named) : Matches opens files o' s := by
  refine ⟨h1.trans h.lib, h2.trans h.tol, h3.trans h.miniter, h4.trans h.maxiter,
    h5.trans h.residMethod, h6.trans h.omega, h7.trans h.print, h8.trans h.create,
    h9.trans h.apply, ?_⟩
  have hd := h.dest
  unfold DestOk at hd ⊢
  rw [h10, h11, h7]
  exact hd

theorem Good.setter {ops : List (Op α)} {op : Op α} {w w' : World α} {e : Eff α}
    (g : Good opens tol0 omega0 ops w) {i : Nat} {f : Obj α → Obj α}
    (hw : w.modify i f = .ok (w', e)) (hk : ∀ o, (f o).kind = o.kind)
    (hm : ∀ o s, Matches opens w.files o s → Matches opens w.files (f o) (Settings.after i s op))
    (hsink : ∀ o id, (f o).sink = .file id → o.sink = .file id) (hmade : made [op] = [])
    (hother : ∀ j (s : Settings α), j ≠ i → Settings.after j s op = s) :
    Good opens tol0 omega0 (ops ++ [op]) w' := by
  obtain ⟨o, ho, hw⟩ := Res.bind_eq_ok.1 hw
  cases hw
  rw [World.obj_ok] at ho
  refine g.put ho (hk o) ?_ (hsink o) hmade (fun j hj => ?_)
  · rw [inForce_snoc]
    exact hm _ _ (g.live _ _ ho).2
  · rw [inForce_snoc]
    exact hother j _ hj

/-- the streams may get new lines, and new streams may be added -/
theorem Good.refile {ops : List (Op α)} {w : World α} (g : Good opens tol0 omega0 ops w)
    (files : List (File α)) (cout : History α)
    (h : ∀ i o id f, w.Has i o → o.sink = .file id → w.files[id]? = some f →
      ∃ f', files[id]? = some f' ∧ f'.name = f.name ∧ f'.good = f.good ∧ f'.deleted = f.deleted) :
    Good opens tol0 omega0 ops { w with
      files := files
      cout := cout } := by
  refine ⟨g.count, fun i o ho => ⟨(g.live i o ho).1, ?_⟩, g.fresh, g.own, g.alive⟩
  have hm := (g.live i o ho).2
  refine { hm with dest := ?_ }
  have hd := hm.dest
  revert hd
  cases (inForce tol0 omega0 ops i).dest with
  | unset => exact id
  | stdout => exact id
  | file name =>
    rintro ⟨id, f, h1, h2, h3, h4, h5⟩
    obtain ⟨f', e1, e2, e3, e4⟩ := h i o id f ho h1 h2
    exact ⟨id, f', h1, e1, e2.trans h3, e3.trans h4, e4.trans h5⟩

theorem Good.new {ops : List (Op α)} {w : World α} (g : Good opens tol0 omega0 ops w) (k : Kind) :
    Good opens tol0 omega0 (ops ++ [.new k])
      { w with objs := w.objs ++ [some { kind := k, tol := tol0, omega := omega0, finalResid := N.zero }] } := by
  have hin : ∀ i, inForce tol0 omega0 (ops ++ [.new k]) i = inForce tol0 omega0 ops i := by
    intro i; rw [inForce_snoc]; rfl
  have hmade : made (ops ++ [.new k]) = made ops ++ [k] := by rw [made_snoc]; rfl
  have hhas : ∀ (i : Nat) (o : Obj α), World.Has { w with objs := w.objs ++
      [some { kind := k, tol := tol0, omega := omega0, finalResid := N.zero }] } i o →
      w.Has i o ∨ (i = w.objs.length ∧
        o = { kind := k, tol := tol0, omega := omega0, finalResid := N.zero }) := by
    intro i o h
    unfold World.Has at h ⊢
    dsimp only at h
    rw [List.getElem?_append] at h
    split at h
    · exact .inl h
    · rename_i hi
      rw [List.getElem?_singleton] at h
      split at h
      · injection h with h; injection h with h
        exact .inr ⟨by omega, h.symm⟩
      · cases h
  refine ⟨by simp [hmade, g.count], ?_, ?_, ?_, ?_⟩
  · intro i o h
    rw [hmade, hin]
    rcases hhas i o h with h | ⟨rfl, rfl⟩
    · refine ⟨?_, (g.live i o h).2⟩
      rw [List.getElem?_append_left (by rw [← g.count]; exact h.lt)]
      exact (g.live i o h).1
    · rw [g.count, List.getElem?_append_right (Nat.le_refl _), Nat.sub_self, ← g.count,
        g.fresh _ (Nat.le_refl _)]
      exact ⟨rfl, rfl, rfl, rfl, rfl, rfl, rfl, rfl, rfl, rfl, ⟨rfl, rfl, rfl⟩⟩
  · intro i hi
    rw [hin]
    refine g.fresh i ?_
    dsimp only at hi
    rw [List.length_append, List.length_singleton] at hi
    omega
  · intro i j p q id hp hq h1 h2
    rcases hhas i p hp with hp | ⟨rfl, rfl⟩
    · rcases hhas j q hq with hq | ⟨rfl, rfl⟩
      · exact g.own _ _ _ _ id hp hq h1 h2
      · cases h2
    · cases h1
  · intro i hi hd
    dsimp only at hi
    rw [List.length_append, List.length_singleton] at hi
    by_cases h : i < w.objs.length
    · obtain ⟨o, ho⟩ := g.alive i h (fun h => hd (List.mem_append_left _ h))
      refine ⟨o, ?_⟩
      unfold World.Has at ho ⊢
      dsimp only
      rw [List.getElem?_append_left h]
      exact ho
    · have : i = w.objs.length := by omega
      subst this
      exact ⟨_, by unfold World.Has; exact List.getElem?_concat_length⟩

theorem Good.destroy {ops : List (Op α)} {w w' : World α} {e : Eff α}
    (g : Good opens tol0 omega0 ops w) {i : Nat} (h : w.destroy i = .ok (w', e)) :
    Good opens tol0 omega0 (ops ++ [.destroy i]) w' := by
  obtain ⟨o, ho, h⟩ := Res.bind_eq_ok.1 h
  rw [World.obj_ok] at ho
  have hin : ∀ j, inForce tol0 omega0 (ops ++ [.destroy i]) j = inForce tol0 omega0 ops j := by
    intro j; rw [inForce_snoc]; rfl
  have hmade : made (ops ++ [Op.destroy (α := α) i]) = made ops := by
    rw [made_snoc]; exact List.append_nil _
  have hhas : ∀ (fs : List (File α)) (j : Nat) (p : Obj α),
      World.Has { w with
        objs := w.objs.set i none
        files := fs } j p ↔ i ≠ j ∧ w.Has j p := by
    intro fs j p
    unfold World.Has
    dsimp only
    rw [List.getElem?_set]
    by_cases h : i = j
    · subst h; simp [ho.lt]
    · simp [h]
  have main : ∀ fs : List (File α), (∀ j p id f, i ≠ j → w.Has j p → p.sink = .file id →
      w.files[id]? = some f → fs[id]? = some f) →
      Good opens tol0 omega0 (ops ++ [.destroy i]) { w with
        objs := w.objs.set i none
        files := fs } := by
    intro fs hfs
    refine ⟨by simp [hmade, g.count], ?_, ?_, ?_, ?_⟩
    · intro j p hp
      obtain ⟨hij, hp⟩ := (hhas _ _ _).1 hp
      rw [hmade, hin]
      refine ⟨(g.live j p hp).1, ?_⟩
      have hm := (g.live j p hp).2
      refine { hm with dest := ?_ }
      have hd := hm.dest
      revert hd
      cases (inForce tol0 omega0 ops j).dest with
      | unset => exact id
      | stdout => exact id
      | file name =>
        rintro ⟨id, f, h1, h2, h3⟩
        exact ⟨id, f, h1, hfs j p id f hij hp h1 h2, h3⟩
    · intro j hj
      rw [hin]
      refine g.fresh j ?_
      dsimp only at hj
      rwa [List.length_set] at hj
    · intro j k p q id hp hq
      exact g.own j k p q id ((hhas _ _ _).1 hp).2 ((hhas _ _ _).1 hq).2
    · intro j hj hd
      dsimp only at hj
      rw [List.length_set] at hj
      obtain ⟨p, hp⟩ := g.alive j hj (fun h => hd (List.mem_append_left _ h))
      refine ⟨p, (hhas _ _ _).2 ⟨?_, hp⟩⟩
      rintro rfl
      exact hd (by simp)
  dsimp only at h
  split at h
  · split at h
    · rename_i id hid
      split at h
      · rename_i f hf
        split at h
        · cases h
        · cases h
          refine main _ (fun j p id' f' hij hp h1 h2 => ?_)
          rw [List.getElem?_set]
          split
          · rename_i heq
            subst heq
            exact absurd (g.own i j o p id ho hp hid h1) hij
          · exact h2
      · cases h
    · cases h
  · cases h
    exact main w.files (fun j p id f _ _ _ h => h)

theorem createPrecond_fields {p p' : Obj α} {A : SMat α} (h : p.createPrecond N A = .ok p') :
    ∃ M B, p' = { p with
      M := M
      A := B } := by
  unfold Obj.createPrecond at h
  split at h
  · cases h; exact ⟨p.M, p.A, rfl⟩
  · split at h
    · cases h
    · obtain ⟨M, _, h⟩ := Res.bind_eq_ok.1 h
      cases h
      exact ⟨_, _, rfl⟩
  · split at h
    · cases h
    · obtain ⟨M, _, h⟩ := Res.bind_eq_ok.1 h
      cases h
      exact ⟨_, _, rfl⟩
  · cases h

/-- changes of the data of the preconditioners and of the counters -/
theorem Good.data {ops : List (Op α)} {w : World α} (g : Good opens tol0 omega0 ops w) {i : Nat}
    {o o' : Obj α} (ho : w.Has i o) (hk : o'.kind = o.kind) (h1 : o'.lib = o.lib) (h2 : o'.tol = o.tol)
    (h3 : o'.miniter = o.miniter)
    (h4 : o'.maxiter = o.maxiter) (h5 : o'.residMethod = o.residMethod) (h6 : o'.omega = o.omega)
    (h7 : o'.print = o.print) (h8 : o'.create = o.create) (h9 : o'.apply = o.apply)
    (h10 : o'.sink = o.sink) (h11 : o'.named = o.named) :
    Good opens tol0 omega0 ops (w.put i o') := by
  have hlen : (w.put i o').objs.length = w.objs.length := by simp [World.put]
  refine ⟨by rw [hlen, g.count], ?_, fun j hj => g.fresh j (hlen ▸ hj), ?_, ?_⟩
  · intro j p hp
    rcases (World.has_put ho.lt).1 hp with ⟨rfl, rfl⟩ | ⟨_, hp⟩
    · exact ⟨by rw [hk]; exact (g.live _ _ ho).1,
        (g.live _ _ ho).2.of_fields h1 h2 h3 h4 h5 h6 h7 h8 h9 h10 h11⟩
    · exact g.live j p hp
  · intro j k p q id hp hq e1 e2
    rw [World.has_put ho.lt] at hp hq
    rcases hp with ⟨rfl, rfl⟩ | ⟨hij, hp⟩ <;> rcases hq with ⟨rfl, rfl⟩ | ⟨hik, hq⟩
    · rfl
    · exact g.own _ _ _ _ id ho hq (h10 ▸ e1) e2
    · exact g.own _ _ _ _ id hp ho e1 (h10 ▸ e2)
    · exact g.own _ _ _ _ id hp hq e1 e2
  · intro j hj hd
    rw [hlen] at hj
    obtain ⟨p, hp⟩ := g.alive j hj hd
    by_cases h : i = j
    · exact ⟨o', (World.has_put ho.lt).2 (.inl ⟨h, rfl⟩)⟩
    · exact ⟨p, (World.has_put ho.lt).2 (.inr ⟨h, hp⟩)⟩

theorem Good.create {ops : List (Op α)} {w w' : World α} (g : Good opens tol0 omega0 ops w)
    {o : Obj α} {A : SMat α} (h : w.create N o A = .ok w') : Good opens tol0 omega0 ops w' := by
  unfold World.create at h
  split at h
  · cases h; exact g
  · obtain ⟨p, hp, h⟩ := Res.bind_eq_ok.1 h
    obtain ⟨p', hp', h⟩ := Res.bind_eq_ok.1 h
    cases h
    rw [World.obj_ok] at hp
    obtain ⟨M, B, rfl⟩ := createPrecond_fields hp'
    exact g.data hp rfl rfl rfl rfl rfl rfl rfl rfl rfl rfl rfl rfl

theorem Good.write {ops : List (Op α)} {w w' : World α} (g : Good opens tol0 omega0 ops w)
    {s : Sink} {h : History α} (e : w.write s h = .ok w') : Good opens tol0 omega0 ops w' := by
  unfold World.write at e
  split at e
  · cases e; exact g
  · split at e
    · cases e
    · cases e
      exact g.refile w.files _ (fun _ _ _ f _ _ h => ⟨f, h, rfl, rfl, rfl⟩)
    · rename_i id
      split at e
      · rename_i f hf
        split at e
        · cases e
        · split at e
          · cases e
            refine g.refile _ w.cout (fun i o id' f' _ _ h' => ?_)
            by_cases hid : id = id'
            · subst hid
              rw [hf] at h'
              cases h'
              exact ⟨_, List.getElem?_set_self (List.getElem?_eq_some_iff.1 hf).1, rfl, rfl, rfl⟩
            · exact ⟨f', by rw [List.getElem?_set_ne hid]; exact h', rfl, rfl, rfl⟩
          · cases e; exact g
      · cases e

theorem Good.solve {ops : List (Op α)} {w w' : World α} {e : Eff α}
    (g : Good opens tol0 omega0 ops w) {i : Nat} {A : SMat α} {x b : List α}
    (h : w.solve N i A x b = .ok (w', e)) :
    Good opens tol0 omega0 (ops ++ [.solve i A x b]) w' := by
  refine Good.same ?_ rfl (fun j => by rw [inForce_snoc]; rfl)
  obtain ⟨o, ho, h⟩ := Res.bind_eq_ok.1 h
  split at h
  · cases h; exact g
  · cases h
  · cases h
  · rename_i w1 hw1
    have g1 : Good opens tol0 omega0 ops w1 := by
      split at hw1
      · exact g.create hw1
      · cases hw1; exact g
    split at h
    · cases h; exact g1
    · cases h
    · cases h
    · obtain ⟨o', ho', h⟩ := Res.bind_eq_ok.1 h
      obtain ⟨w2, hw2, h⟩ := Res.bind_eq_ok.1 h
      cases h
      rw [World.obj_ok] at ho'
      refine Good.write ?_ hw2
      exact g1.data ho' rfl rfl rfl rfl rfl rfl rfl rfl rfl rfl rfl rfl

theorem Good.setFile {ops : List (Op α)} {w w' : World α} {e : Eff α}
    (g : Good opens tol0 omega0 ops w) {i : Nat} {name : String}
    (h : w.step N opens tol0 omega0 (.setFile i name) = .ok (w', e)) :
    Good opens tol0 omega0 (ops ++ [.setFile i name]) w' := by
  obtain ⟨o, ho, h⟩ := Res.bind_eq_ok.1 h
  cases h
  rw [World.obj_ok] at ho
  -- the new stream is not used by any object yet
  have g1 : Good opens tol0 omega0 ops { w with
      files := w.files ++ [{ name := name, good := opens name }]
      cout := w.cout } := by
    refine g.refile _ _ (fun _ _ id f _ _ h => ⟨f, ?_, rfl, rfl, rfl⟩)
    rw [List.getElem?_append_left (List.getElem?_eq_some_iff.1 h).1]
    exact h
  have lt : ∀ j p id, w.Has j p → p.sink = .file id → id < w.files.length := by
    intro j p id hp hs
    have hd := (g.live j p hp).2.dest
    unfold DestOk at hd
    split at hd
    · rw [hd.1] at hs; cases hs
    · rw [hd] at hs; cases hs
    · obtain ⟨id', f, h1, h2, _⟩ := hd
      rw [hs] at h1
      cases h1
      exact (List.getElem?_eq_some_iff.1 h2).1
  have hin : ∀ j, inForce tol0 omega0 (ops ++ [.setFile i name]) j =
      if i = j then { inForce tol0 omega0 ops j with dest := .file name } else inForce tol0 omega0 ops j := by
    intro j; rw [inForce_snoc]; rfl
  have hmade : made (ops ++ [Op.setFile (α := α) i name]) = made ops := by
    rw [made_snoc]; exact List.append_nil _
  have hhas : ∀ (j : Nat) (p : Obj α), World.Has { (w.put i { o with
          named := decide (name ≠ "")
          sink := .file w.files.length }) with
        files := w.files ++ [{ name := name, good := opens name }] } j p ↔
      (i = j ∧ p = { o with
          named := decide (name ≠ "")
          sink := .file w.files.length }) ∨ (i ≠ j ∧ w.Has j p) :=
    fun j p => World.has_put ho.lt
  have hlen : (w.put i { o with
      named := decide (name ≠ "")
      sink := .file w.files.length }).objs.length = w.objs.length := by simp [World.put]
  refine ⟨?_, ?_, ?_, ?_, ?_⟩
  · rw [hmade]; exact hlen.trans g.count
  · intro j p hp
    rw [hmade, hin]
    rcases (hhas j p).1 hp with ⟨rfl, rfl⟩ | ⟨hij, hp⟩
    · rw [if_pos rfl]
      have hm := (g1.live i o ho).2
      refine ⟨(g.live i o ho).1, hm.lib, hm.tol, hm.miniter, hm.maxiter, hm.residMethod, hm.omega,
        hm.print, hm.create, hm.apply, ?_⟩
      exact ⟨_, _, rfl, List.getElem?_concat_length, rfl, rfl, rfl⟩
    · rw [if_neg hij]
      exact g1.live j p hp
  · intro j hj
    replace hj : w.objs.length ≤ j := hlen ▸ hj
    have := ho.lt
    rw [hin, if_neg (by omega)]
    exact g.fresh j hj
  · intro j k p q id hp hq h1 h2
    rcases (hhas j p).1 hp with ⟨rfl, rfl⟩ | ⟨hij, hp⟩ <;> rcases (hhas k q).1 hq with ⟨rfl, rfl⟩ | ⟨hik, hq⟩
    · rfl
    · cases h1
      exact absurd (lt _ _ _ hq h2) (Nat.lt_irrefl _)
    · cases h2
      exact absurd (lt _ _ _ hp h1) (Nat.lt_irrefl _)
    · exact g.own _ _ _ _ id hp hq h1 h2
  · intro j hj hd
    replace hj : j < w.objs.length := hlen ▸ hj
    obtain ⟨p, hp⟩ := g.alive j hj (fun h => hd (List.mem_append_left _ h))
    by_cases h : i = j
    · exact ⟨_, (hhas j _).2 (.inl ⟨h, rfl⟩)⟩
    · exact ⟨p, (hhas j p).2 (.inr ⟨h, hp⟩)⟩

theorem Good.step {ops : List (Op α)} {op : Op α} {w w' : World α} {e : Eff α}
    (g : Good opens tol0 omega0 ops w) (hc : ∀ i, op ≠ .copy i)
    (h : w.step N opens tol0 omega0 op = .ok (w', e)) : Good opens tol0 omega0 (ops ++ [op]) w' := by
  have ne : ∀ {j i : Nat} {s t : Settings α}, j ≠ i → (if i = j then t else s) = s :=
    fun h => if_neg (Ne.symm h)
  cases op with
  | new k => cases h; exact g.new k
  | setLib i l =>
    exact g.setter h (fun _ => rfl) (fun o s m => by
      rw [Settings.after, if_pos rfl]
      exact ⟨rfl, m.tol, m.miniter, m.maxiter, m.residMethod, m.omega, m.print, m.create, m.apply, m.dest⟩)
      (fun _ _ h => h) rfl (fun j s hj => ne hj)
  | setTol i t =>
    exact g.setter h (fun _ => rfl) (fun o s m => by
      rw [Settings.after, if_pos rfl]
      exact ⟨m.lib, rfl, m.miniter, m.maxiter, m.residMethod, m.omega, m.print, m.create, m.apply, m.dest⟩)
      (fun _ _ h => h) rfl (fun j s hj => ne hj)
  | setMiniter i t =>
    exact g.setter h (fun _ => rfl) (fun o s m => by
      rw [Settings.after, if_pos rfl]
      exact ⟨m.lib, m.tol, rfl, m.maxiter, m.residMethod, m.omega, m.print, m.create, m.apply, m.dest⟩)
      (fun _ _ h => h) rfl (fun j s hj => ne hj)
  | setMaxiter i t =>
    exact g.setter h (fun _ => rfl) (fun o s m => by
      rw [Settings.after, if_pos rfl]
      exact ⟨m.lib, m.tol, m.miniter, rfl, m.residMethod, m.omega, m.print, m.create, m.apply, m.dest⟩)
      (fun _ _ h => h) rfl (fun j s hj => ne hj)
  | setResidMethod i t =>
    exact g.setter h (fun _ => rfl) (fun o s m => by
      rw [Settings.after, if_pos rfl]
      exact ⟨m.lib, m.tol, m.miniter, m.maxiter, rfl, m.omega, m.print, m.create, m.apply, m.dest⟩)
      (fun _ _ h => h) rfl (fun j s hj => ne hj)
  | setOmega i t =>
    exact g.setter h (fun _ => rfl) (fun o s m => by
      rw [Settings.after, if_pos rfl]
      exact ⟨m.lib, m.tol, m.miniter, m.maxiter, m.residMethod, rfl, m.print, m.create, m.apply, m.dest⟩)
      (fun _ _ h => h) rfl (fun j s hj => ne hj)
  | setPrint i b =>
    exact g.setter h (fun _ => rfl) (fun o s m => by
      rw [Settings.after, if_pos rfl]
      exact ⟨m.lib, m.tol, m.miniter, m.maxiter, m.residMethod, m.omega, rfl, m.create, m.apply, rfl⟩)
      (fun _ _ h => nomatch h) rfl (fun j s hj => ne hj)
  | setFile i name => exact g.setFile h
  | setCreate i j =>
    obtain ⟨_, _, h⟩ := Res.bind_eq_ok.1 h
    exact g.setter h (fun _ => rfl) (fun o s m => by
      rw [Settings.after, if_pos rfl]
      exact ⟨m.lib, m.tol, m.miniter, m.maxiter, m.residMethod, m.omega, m.print, rfl, m.apply, m.dest⟩)
      (fun _ _ h => h) rfl (fun j s hj => ne hj)
  | setApply i j =>
    obtain ⟨_, _, h⟩ := Res.bind_eq_ok.1 h
    exact g.setter h (fun _ => rfl) (fun o s m => by
      rw [Settings.after, if_pos rfl]
      exact ⟨m.lib, m.tol, m.miniter, m.maxiter, m.residMethod, m.omega, m.print, m.create, rfl, m.dest⟩)
      (fun _ _ h => h) rfl (fun j s hj => ne hj)
  | solve i A x b => exact g.solve h
  | copy i => exact absurd rfl (hc i)
  | destroy i => exact g.destroy h

theorem Good.empty : Good opens tol0 omega0 ([] : List (Op α)) {} :=
  ⟨rfl, (fun i o h => by cases h), fun i _ => rfl, (fun i j p q id h => by cases h),
    fun i h => absurd h (Nat.not_lt_zero i)⟩

theorem good_run {ops : List (Op α)} (hc : NoCopy ops) {w : World α}
    (h : World.run N opens tol0 omega0 {} ops = .ok w) : Good opens tol0 omega0 ops w := by
  induction ops using List.reverseRecOn generalizing w with
  | nil => cases h; exact Good.empty
  | append_singleton ops op ih =>
    rw [run_snoc] at h
    obtain ⟨w1, h1, h⟩ := Res.bind_eq_ok.1 h
    obtain ⟨⟨w2, e⟩, h2, h⟩ := Res.bind_eq_ok.1 h
    cases h
    refine (ih (fun i hi => hc i (List.mem_append_left _ hi)) h1).step (fun i hi => ?_) h2
    exact hc i (by simp [hi])

end Verif.Solver
