import Verif.Spec.SharedSpec
import Mathlib.Tactic.ByContra

/-!
C46 (`move` shares the storage) and C52 (views follow their target).
-/

namespace Verif.Shared

variable {α : Type}

theorem obj_eq {s : Sys α} {i : Nat} {o : Obj} : s.obj i = .ok o ↔ s.objs[i]? = some (some o) := by
  unfold Sys.obj
  constructor
  · intro h
    split at h
    · rename_i h'; cases h; exact h'
    · cases h
  · intro h; rw [h]

theorem obj_set_ne {s : Sys α} {bs : List (List α)} {i j : Nat} (h : i ≠ j) (x : Option Obj) :
    ({ bufs := bs, objs := s.objs.set i x } : Sys α).obj j = s.obj j := by
  unfold Sys.obj
  dsimp only
  rw [List.getElem?_set_ne h]

theorem obj_set_self {s : Sys α} {bs : List (List α)} {i : Nat} {o : Obj} (h : s.obj i = .ok o) (x : Obj) :
    ({ bufs := bs, objs := s.objs.set i (some x) } : Sys α).obj i = .ok x := by
  rw [obj_eq] at h ⊢
  have : i < s.objs.length := by
    by_contra hc
    rw [List.getElem?_eq_none (by omega)] at h; cases h
  dsimp only
  rw [List.getElem?_set_self this]

theorem bufs_set {bs : List (List α)} {a : Nat} {x b : List α} (h : bs[a]? = some x)
    (hl : b.length = x.length) {c : Nat} {y : List α} (hy : bs[c]? = some y) :
    ∃ z, (bs.set a b)[c]? = some z ∧ z.length = y.length := by
  have ha : a < bs.length := by
    by_contra hc
    rw [List.getElem?_eq_none (by omega)] at h; cases h
  by_cases hac : a = c
  · subst hac
    rw [h] at hy; cases hy
    exact ⟨b, List.getElem?_set_self ha, hl⟩
  · exact ⟨y, by rw [List.getElem?_set_ne hac, hy], rfl⟩

theorem write_inv {s s' : Sys α} {i k : Nat} {v : α} (h : s.write i k v = .ok s') :
    ∃ o b, s.obj i = .ok o ∧ o.check k = .ok () ∧ s.bufs[o.buf]? = some b ∧ o.first + k < b.length ∧
      s' = { s with bufs := s.bufs.set o.buf (b.set (o.first + k) v) } := by
  unfold Sys.write at h
  obtain ⟨o, h1, h⟩ := Res.bind_eq_ok.mp h
  obtain ⟨_, h2, h⟩ := Res.bind_eq_ok.mp h
  obtain ⟨b, h3, h⟩ := Res.bind_eq_ok.mp h
  obtain ⟨b', h4, h⟩ := Res.bind_eq_ok.mp h
  obtain ⟨bs, h5, h⟩ := Res.bind_eq_ok.mp h
  rw [wr_eq_ok] at h4 h5
  cases h
  exact ⟨o, b, h1, h2, rd_eq_ok.mp h3, h4.1, by rw [h5.2, h4.2]⟩

theorem fill_ok {b : List α} {f nn N : Nat} {v : α} (h : f + N ≤ b.length) :
    ∃ b', forRange nn N (fun k b => wr b (f + k) v) b = .ok b' ∧ b'.length = b.length := by
  by_cases hnN : nn ≤ N
  · obtain ⟨b', h1, h2⟩ := forRange_sat (lo := nn) (hi := N) (body := fun k (b : List α) => wr b (f + k) v)
      (s := b) (fun _ t => t.length = b.length) hnN rfl (by
        intro i t h1 h2 ht
        rw [wr_ok (by omega), Res.sat_ok]
        simpa using ht)
    exact ⟨b', h1, h2⟩
  · exact ⟨b, forRange_empty _ _ (by omega), rfl⟩

/-- outcomes of `resize` -/
theorem resize_cases {s : Sys α} (hs : s.WF) {i N : Nat} {v : α} {o : Obj} (ho : s.obj i = .ok o) :
    (o.kind ≠ .vec ∧ o.first + N < o.alloc ∧ ∃ b b', s.bufs[o.buf]? = some b ∧ b'.length = b.length ∧
      s.resize i N v = .ok { bufs := s.bufs.set o.buf b', objs := s.objs.set i (some { o with nnz := N }) }) ∨
    (¬ (o.kind ≠ .vec ∧ o.first + N < o.alloc) ∧ o.created = true ∧ ∃ b', b'.length = N ∧
      s.resize i N v = .ok { bufs := s.bufs ++ [b'], objs := s.objs.set i (some
        { o with buf := s.bufs.length, alloc := N, nnz := N, first := 0 }) }) ∨
    (¬ (o.kind ≠ .vec ∧ o.first + N < o.alloc) ∧ o.created = false ∧ ∃ e, s.resize i N v = .throw e) := by
  obtain ⟨w1, w2, b, hb, hl⟩ := hs i o ho
  have hbl : o.buf < s.bufs.length := by
    by_contra hc
    rw [List.getElem?_eq_none (by omega)] at hb; cases hb
  by_cases h1 : o.kind ≠ .vec ∧ o.first + N < o.alloc
  · obtain ⟨b', g1, g2⟩ := fill_ok (b := b) (f := o.first) (nn := o.nnz) (N := N) (v := v) (by omega)
    refine Or.inl ⟨h1.1, h1.2, b, b', hb, g2, ?_⟩
    unfold Sys.resize
    rw [ho, Res.ok_bind, if_pos h1, rd_of_getElem? hb, Res.ok_bind, g1, Res.ok_bind, wr_ok hbl,
      Res.ok_bind]
  · cases hc : o.created with
    | true =>
      refine Or.inr (Or.inl ⟨h1, rfl, ?_⟩)
      unfold Sys.resize
      rw [ho, Res.ok_bind, if_neg h1, if_pos hc, rd_of_getElem? hb, Res.ok_bind,
        reallocCopy_ok (by omega), Res.ok_bind]
      refine ⟨b.take (min o.nnz N) ++ List.replicate (N - min o.nnz N) v, by simp; omega, ?_⟩
      have : (if o.kind = .vec then o.first else 0) = 0 := by rw [w2 hc]; simp
      rw [this, hc]
    | false =>
      refine Or.inr (Or.inr ⟨h1, rfl, ?_⟩)
      unfold Sys.resize
      rw [ho, Res.ok_bind, if_neg h1, if_neg (by simp [hc])]
      exact ⟨_, rfl⟩

theorem obj_create {s : Sys α} {kind : Kind} {n : Nat} {v : α} {i : Nat} {o : Obj}
    (h : (s.create kind n v).obj i = .ok o) :
    s.obj i = .ok o ∨ o = { kind := kind, buf := s.bufs.length, first := 0, nnz := n, alloc := n,
                            created := true } := by
  rw [obj_eq] at h ⊢
  unfold Sys.create at h
  dsimp only at h
  rw [List.getElem?_append] at h
  split at h
  · exact Or.inl h
  · rename_i hi
    right
    rw [List.getElem?_singleton] at h
    split at h
    · cases h; rfl
    · cases h

theorem move_inv {s s' : Sys α} {d t : Nat} (h : s.move d t = .ok s') :
    ∃ od ot k, s.obj d = .ok od ∧ s.obj t = .ok ot ∧ moveKind od.kind ot.kind ot.nnz = some k ∧
      s' = { s with objs := s.objs.set d (some { ot with kind := k, created := false }) } := by
  unfold Sys.move at h
  obtain ⟨od, h1, h⟩ := Res.bind_eq_ok.mp h
  obtain ⟨ot, h2, h⟩ := Res.bind_eq_ok.mp h
  cases hk : moveKind od.kind ot.kind ot.nnz with
  | some k =>
    rw [hk] at h
    cases h
    exact ⟨od, ot, k, h1, h2, hk, rfl⟩
  | none => rw [hk] at h; cases h

theorem obj_set_cases {s : Sys α} {bs : List (List α)} {i j : Nat} {x o : Obj} {oi : Obj}
    (hi : s.obj i = .ok oi) (h : ({ bufs := bs, objs := s.objs.set i (some x) } : Sys α).obj j = .ok o) :
    (j = i ∧ o = x) ∨ (j ≠ i ∧ s.obj j = .ok o) := by
  by_cases hij : i = j
  · subst hij
    rw [obj_set_self hi] at h
    cases h
    exact Or.inl ⟨rfl, rfl⟩
  · rw [obj_set_ne hij] at h
    exact Or.inr ⟨fun e => hij e.symm, h⟩

theorem step_wf {s s' : Sys α} (hs : s.WF) {op : Op α} (h : s.step op = .ok s') : s'.WF := by
  cases op with
  | write i k v =>
    simp only [Sys.step] at h
    split at h
    · cases h; exact hs
    · obtain ⟨o, b, h1, _, h3, h4, rfl⟩ := write_inv h
      intro j oj hj
      obtain ⟨w1, w2, c, hc, hl⟩ := hs j oj hj
      obtain ⟨z, hz, hzl⟩ := bufs_set h3 (b := b.set (o.first + k) v) (by simp) hc
      exact ⟨w1, w2, z, hz, by rw [hzl, hl]⟩
  | create kind n v =>
    simp only [Sys.step] at h
    cases h
    intro j oj hj
    rcases obj_create hj with hj | rfl
    · obtain ⟨w1, w2, c, hc, hl⟩ := hs j oj hj
      refine ⟨w1, w2, c, ?_, hl⟩
      have : oj.buf < s.bufs.length := by
        by_contra hcc
        rw [List.getElem?_eq_none (by omega)] at hc; cases hc
      simp only [Sys.create]
      rw [List.getElem?_append_left this, hc]
    · exact ⟨by simp, fun _ => rfl, List.replicate n v, by simp [Sys.create], by simp⟩
  | destroy i =>
    simp only [Sys.step] at h
    split at h
    · cases h; exact hs
    · unfold Sys.destroy at h
      obtain ⟨o, h1, h⟩ := Res.bind_eq_ok.mp h
      cases h
      intro j oj hj
      have hji : i ≠ j := by
        rintro rfl
        rw [obj_eq] at hj
        dsimp only at hj
        rw [List.getElem?_set] at hj
        simp at hj
      rw [obj_set_ne hji] at hj
      exact hs j oj hj
  | resize i N v =>
    simp only [Sys.step] at h
    cases ho : s.obj i with
    | ok o =>
      obtain ⟨w1, w2, b, hb, hl⟩ := hs i o ho
      rcases resize_cases hs (N := N) (v := v) ho with ⟨_, c1, b0, b', g1, g2, g3⟩ | ⟨_, c2, b', g1, g3⟩ |
        ⟨_, _, e, g3⟩
      · rw [g3] at h
        cases h
        intro j oj hj
        rcases obj_set_cases ho hj with ⟨rfl, rfl⟩ | ⟨_, hj⟩
        · obtain ⟨z, hz, hzl⟩ := bufs_set g1 g2 hb
          exact ⟨by dsimp only; omega, w2, z, hz, by rw [hzl]; exact hl⟩
        · obtain ⟨x1, x2, c, hc, hcl⟩ := hs j oj hj
          obtain ⟨z, hz, hzl⟩ := bufs_set g1 g2 hc
          exact ⟨x1, x2, z, hz, by rw [hzl]; exact hcl⟩
      · rw [g3] at h
        cases h
        intro j oj hj
        rcases obj_set_cases ho hj with ⟨rfl, rfl⟩ | ⟨_, hj⟩
        · exact ⟨by simp, fun _ => rfl, b', by simp, g1⟩
        · obtain ⟨x1, x2, c, hc, hcl⟩ := hs j oj hj
          refine ⟨x1, x2, c, ?_, hcl⟩
          have : oj.buf < s.bufs.length := by
            by_contra hcc
            rw [List.getElem?_eq_none (by omega)] at hc; cases hc
          dsimp only
          rw [List.getElem?_append_left this, hc]
      · rw [g3] at h
        cases h
        exact hs
    | throw e => unfold Sys.resize at h; rw [ho] at h; cases h; exact hs
    | abort e => unfold Sys.resize at h; rw [ho] at h; cases h
    | ub e => unfold Sys.resize at h; rw [ho] at h; cases h
  | move d t =>
    simp only [Sys.step] at h
    split at h
    · cases h; exact hs
    · obtain ⟨od, ot, k, h1, h2, _, rfl⟩ := move_inv h
      intro j oj hj
      rcases obj_set_cases h1 hj with ⟨rfl, rfl⟩ | ⟨_, hj⟩
      · obtain ⟨x1, x2, x3⟩ := hs t ot h2
        exact ⟨x1, by simp, x3⟩
      · exact hs j oj hj

/-- operations that keep the binding of `i` keep its storage and offset, if it is an alias -/
theorem step_binding {s s' : Sys α} (hs : s.WF) {op : Op α} (h : s.step op = .ok s') {i : Nat} {o : Obj}
    (ho : s.obj i = .ok o) (hk : Keeps i op ∨ (KeepsBinding i op ∧ o.created = false)) :
    ∃ o', s'.obj i = .ok o' ∧ o'.buf = o.buf ∧ o'.first = o.first ∧ o'.created = o.created ∧
      o'.kind = o.kind ∧ o'.alloc = o.alloc ∧ (Keeps i op → o' = o) := by
  cases op with
  | write j k v =>
    simp only [Sys.step] at h
    split at h
    · cases h; exact ⟨o, ho, rfl, rfl, rfl, rfl, rfl, fun _ => rfl⟩
    · obtain ⟨_, _, _, _, _, _, rfl⟩ := write_inv h
      exact ⟨o, ho, rfl, rfl, rfl, rfl, rfl, fun _ => rfl⟩
  | create kind n v =>
    simp only [Sys.step] at h
    cases h
    refine ⟨o, ?_, rfl, rfl, rfl, rfl, rfl, fun _ => rfl⟩
    rw [obj_eq] at ho ⊢
    have : i < s.objs.length := by
      by_contra hc
      rw [List.getElem?_eq_none (by omega)] at ho; cases ho
    simp only [Sys.create]
    rw [List.getElem?_append_left this, ho]
  | destroy j =>
    simp only [Sys.step] at h
    have hji : j ≠ i := by rcases hk with h | h; exacts [h, h.1]
    split at h
    · cases h; exact ⟨o, ho, rfl, rfl, rfl, rfl, rfl, fun _ => rfl⟩
    · unfold Sys.destroy at h
      obtain ⟨_, _, h⟩ := Res.bind_eq_ok.mp h
      cases h
      exact ⟨o, by rw [obj_set_ne hji]; exact ho, rfl, rfl, rfl, rfl, rfl, fun _ => rfl⟩
  | resize j N v =>
    simp only [Sys.step] at h
    cases hj : s.obj j with
    | ok oj =>
      by_cases hji : j = i
      · subst hji
        rw [ho] at hj; cases hj
        have hc : o.created = false := by
          rcases hk with h | h
          · exact absurd rfl h
          · exact h.2
        rcases resize_cases hs (N := N) (v := v) ho with ⟨_, c1, b0, b', g1, g2, g3⟩ |
          ⟨_, c2, b', g1, g3⟩ | ⟨_, _, e, g3⟩
        · rw [g3] at h
          cases h
          exact ⟨_, obj_set_self ho _, rfl, rfl, rfl, rfl, rfl, fun h => absurd rfl h⟩
        · rw [hc] at c2; cases c2
        · rw [g3] at h; cases h
          exact ⟨o, ho, rfl, rfl, rfl, rfl, rfl, fun h => absurd rfl h⟩
      · rcases resize_cases hs (N := N) (v := v) hj with ⟨_, c1, b0, b', g1, g2, g3⟩ |
          ⟨_, c2, b', g1, g3⟩ | ⟨_, _, e, g3⟩
        · rw [g3] at h; cases h
          exact ⟨o, by rw [obj_set_ne hji]; exact ho, rfl, rfl, rfl, rfl, rfl, fun _ => rfl⟩
        · rw [g3] at h; cases h
          exact ⟨o, by rw [obj_set_ne hji]; exact ho, rfl, rfl, rfl, rfl, rfl, fun _ => rfl⟩
        · rw [g3] at h; cases h
          exact ⟨o, ho, rfl, rfl, rfl, rfl, rfl, fun _ => rfl⟩
    | throw e => unfold Sys.obj at hj; split at hj <;> cases hj
    | abort e => unfold Sys.obj at hj; split at hj <;> cases hj
    | ub e => unfold Sys.resize at h; rw [hj] at h; cases h
  | move d t =>
    simp only [Sys.step] at h
    have hji : d ≠ i := by rcases hk with h | h; exacts [h, h.1]
    split at h
    · cases h; exact ⟨o, ho, rfl, rfl, rfl, rfl, rfl, fun _ => rfl⟩
    · obtain ⟨_, _, _, _, _, _, rfl⟩ := move_inv h
      exact ⟨o, by rw [obj_set_ne hji]; exact ho, rfl, rfl, rfl, rfl, rfl, fun _ => rfl⟩

theorem check_ok {o : Obj} {k : Nat} (h : k < o.nnz) (hw : o.first + o.nnz ≤ o.alloc) :
    o.check k = .ok () := by
  unfold Obj.check
  split
  · rfl
  · rw [cassert_decide h, Res.ok_bind, cassert_decide (by omega)]

theorem read_eq {s : Sys α} (hs : s.WF) {i k : Nat} {o : Obj} (ho : s.obj i = .ok o) (hk : k < o.nnz) :
    ∃ b x, s.bufs[o.buf]? = some b ∧ b.length = o.alloc ∧ b[o.first + k]? = some x ∧
      s.read i k = .ok x := by
  obtain ⟨w1, w2, b, hb, hl⟩ := hs i o ho
  have hlt : o.first + k < b.length := by omega
  refine ⟨b, b[o.first + k], hb, hl, List.getElem?_eq_getElem hlt, ?_⟩
  unfold Sys.read
  rw [ho, Res.ok_bind, check_ok hk w1, Res.ok_bind, rd_of_getElem? hb, Res.ok_bind, rd_ok hlt]

/-- `d` is an alias of the storage of `t` -/
def Linked (s : Sys α) (d t : Nat) : Prop :=
  ∃ od ot, s.obj d = .ok od ∧ s.obj t = .ok ot ∧ od.buf = ot.buf ∧ od.first = ot.first ∧
    od.created = false

/-- number of elements of an object (0 when destroyed) -/
def Sys.size (s : Sys α) (i : Nat) : Nat :=
  match s.obj i with
  | .ok o => o.nnz
  | _ => 0

theorem linked_read {s : Sys α} (hs : s.WF) {d t : Nat} (h : Linked s d t) {k : Nat} (h1 : k < s.size d)
    (h2 : k < s.size t) : ∃ x, s.read d k = .ok x ∧ s.read t k = .ok x := by
  obtain ⟨od, ot, hd, ht, e1, e2, _⟩ := h
  have s1 : k < od.nnz := by simpa [Sys.size, hd] using h1
  have s2 : k < ot.nnz := by simpa [Sys.size, ht] using h2
  obtain ⟨b, x, g1, _, g2, g3⟩ := read_eq hs hd s1
  obtain ⟨b', x', f1, _, f2, f3⟩ := read_eq hs ht s2
  rw [e1, f1] at g1; cases g1
  rw [e2, f2] at g2; cases g2
  exact ⟨x, g3, f3⟩

/-- **C46 (after `move`).** `D.move(T)` between any two distinct objects for which it does not throw: `D`
has as many elements as `T`, the elements of `T`, and is an alias of it. -/
theorem C46_move {s s' : Sys α} (hs : s.WF) {d t : Nat} (hdt : d ≠ t) (h : s.move d t = .ok s') :
    s'.WF ∧ Linked s' d t ∧ s'.size d = s'.size t ∧ s'.size t = s.size t ∧
      ∀ k, k < s.size t → ∃ x, s.read t k = .ok x ∧ s'.read t k = .ok x ∧ s'.read d k = .ok x := by
  have hw : s'.WF := step_wf hs (op := .move d t) (by simp only [Sys.step, h])
  obtain ⟨od, ot, k, h1, h2, _, rfl⟩ := move_inv h
  have e1 := obj_set_self (bs := s.bufs) h1 { ot with kind := k, created := false }
  have e2 : ({ s with objs := s.objs.set d (some { ot with kind := k, created := false }) } : Sys α).obj t =
      .ok ot := by rw [← h2]; exact obj_set_ne hdt _
  have hl : Linked ({ s with objs := s.objs.set d (some { ot with kind := k, created := false }) } : Sys α)
      d t := ⟨_, _, e1, e2, rfl, rfl, rfl⟩
  have z1 : ({ s with objs := s.objs.set d (some { ot with kind := k, created := false }) } : Sys α).size d =
      ot.nnz := by unfold Sys.size; rw [e1]
  have z2 : ({ s with objs := s.objs.set d (some { ot with kind := k, created := false }) } : Sys α).size t =
      ot.nnz := by unfold Sys.size; rw [e2]
  have z3 : s.size t = ot.nnz := by unfold Sys.size; rw [h2]
  refine ⟨hw, hl, by rw [z1, z2], by rw [z2, z3], ?_⟩
  intro j hj
  rw [z3] at hj
  obtain ⟨x, x1, x2⟩ := linked_read hw hl (by rw [z1]; exact hj) (by rw [z2]; exact hj)
  refine ⟨x, ?_, x2, x1⟩
  rw [← x2]
  unfold Sys.read
  rw [e2, h2]

/-- **C46 (every history).** While `d` is an alias of `t`, any sequence of operations on any objects —
writes through either, resizes of the alias, creation, destruction, moves of other objects — that does
not destroy, resize or re-bind `t` and does not destroy or re-bind `d` leaves `d` an alias of `t`: reading
either at the same position gives the same element. -/
theorem C46_history {s s' : Sys α} (hs : s.WF) {d t : Nat} (hl : Linked s d t) (ops : List (Op α))
    (hd : ∀ op ∈ ops, KeepsBinding d op) (ht : ∀ op ∈ ops, Keeps t op) (h : s.run ops = .ok s') :
    s'.WF ∧ Linked s' d t ∧
      ∀ k, k < s'.size d → k < s'.size t → ∃ x, s'.read d k = .ok x ∧ s'.read t k = .ok x := by
  suffices key : s'.WF ∧ Linked s' d t from
    ⟨key.1, key.2, fun k h1 h2 => linked_read key.1 key.2 h1 h2⟩
  induction ops generalizing s with
  | nil => cases h; exact ⟨hs, hl⟩
  | cons op ops ih =>
    obtain ⟨s1, h1, h2⟩ := Res.bind_eq_ok.mp h
    obtain ⟨od, ot, a1, a2, a3, a4, a5⟩ := hl
    obtain ⟨od', d1, d2, d3, d4, _⟩ := step_binding hs h1 a1 (Or.inr ⟨hd op (by simp), a5⟩)
    obtain ⟨ot', t1, t2, t3, t4, _⟩ := step_binding hs h1 a2 (Or.inl (ht op (by simp)))
    exact ih (step_wf hs h1) ⟨od', ot', d1, t1, by rw [d2, t2, a3], by rw [d3, t3, a4], by rw [d4, a5]⟩
      (fun o ho => hd o (by simp [ho])) (fun o ho => ht o (by simp [ho])) h2

/-- **C46 (writes are visible).** While `d` is an alias of `t`, a write through `t` at a position of both
succeeds and is what `d` reads there; all other positions of both keep their elements; and the same with
the roles exchanged. -/
theorem C46_write {s : Sys α} (hs : s.WF) {d t : Nat} (hl : Linked s d t) (k : Nat) (v : α)
    (h1 : k < s.size d) (h2 : k < s.size t) :
    (∃ s', s.write t k v = .ok s' ∧ s'.read d k = .ok v ∧ s'.read t k = .ok v ∧
      (∀ j, j < s.size d → j ≠ k → s'.read d j = s.read d j) ∧
      ∀ j, j < s.size t → j ≠ k → s'.read t j = s.read t j) ∧
    (∃ s', s.write d k v = .ok s' ∧ s'.read t k = .ok v ∧ s'.read d k = .ok v ∧
      (∀ j, j < s.size d → j ≠ k → s'.read d j = s.read d j) ∧
      ∀ j, j < s.size t → j ≠ k → s'.read t j = s.read t j) := by
  obtain ⟨od, ot, hd, ht, e1, e2, _⟩ := hl
  have s1 : k < od.nnz := by simpa [Sys.size, hd] using h1
  have s2 : k < ot.nnz := by simpa [Sys.size, ht] using h2
  have z1 : s.size d = od.nnz := by simp [Sys.size, hd]
  have z2 : s.size t = ot.nnz := by simp [Sys.size, ht]
  obtain ⟨w1, _, b, hb, hbl⟩ := hs t ot ht
  obtain ⟨w1', _, b2, hb2, hbl2⟩ := hs d od hd
  rw [e1, hb] at hb2; cases hb2
  have hbuf : ot.buf < s.bufs.length := by
    by_contra hc
    rw [List.getElem?_eq_none (by omega)] at hb; cases hb
  -- the state after the write, whoever writes
  have hrd : ∀ (i : Nat) (o : Obj), s.obj i = .ok o → o.buf = ot.buf → o.first = ot.first →
      o.first + o.nnz ≤ o.alloc → ∀ j, j < o.nnz → j < b.length - ot.first →
      ({ s with bufs := s.bufs.set ot.buf (b.set (ot.first + k) v) } : Sys α).read i j =
        if j = k then .ok v else s.read i j := by
    intro i o ho q1 q2 q3 j hj hjb
    unfold Sys.read
    have : ({ s with bufs := s.bufs.set ot.buf (b.set (ot.first + k) v) } : Sys α).obj i = .ok o := ho
    rw [this, ho, Res.ok_bind, Res.ok_bind, check_ok hj q3, Res.ok_bind, Res.ok_bind, q1,
      rd_of_getElem? hb, Res.ok_bind]
    have : rd ({ s with bufs := s.bufs.set ot.buf (b.set (ot.first + k) v) } : Sys α).bufs ot.buf =
        .ok (b.set (ot.first + k) v) := rd_of_getElem? (List.getElem?_set_self hbuf)
    rw [this, Res.ok_bind, q2]
    by_cases hjk : j = k
    · subst hjk
      rw [if_pos rfl]
      exact rd_of_getElem? (List.getElem?_set_self (by omega))
    · rw [if_neg hjk]
      unfold rd
      rw [List.getElem?_set_ne (by omega)]
  have hwr : ∀ (i : Nat) (o : Obj), s.obj i = .ok o → o.buf = ot.buf → o.first = ot.first →
      o.first + o.nnz ≤ o.alloc → k < o.nnz →
      s.write i k v = .ok { s with bufs := s.bufs.set ot.buf (b.set (ot.first + k) v) } := by
    intro i o ho q1 q2 q3 q4
    unfold Sys.write
    rw [ho, Res.ok_bind, check_ok q4 q3, Res.ok_bind, q1, rd_of_getElem? hb, Res.ok_bind, q2,
      wr_ok (by omega), Res.ok_bind, wr_ok hbuf, Res.ok_bind]
  have rd' := hrd d od hd e1 e2 w1'
  have rt' := hrd t ot ht rfl rfl w1
  refine ⟨⟨_, hwr t ot ht rfl rfl w1 s2, ?_, ?_, ?_, ?_⟩, ⟨_, hwr d od hd e1 e2 w1' s1, ?_, ?_, ?_, ?_⟩⟩
  · rw [rd' k s1 (by omega), if_pos rfl]
  · rw [rt' k s2 (by omega), if_pos rfl]
  · intro j hj hjk
    rw [rd' j (by omega) (by omega), if_neg hjk]
  · intro j hj hjk
    rw [rt' j (by omega) (by omega), if_neg hjk]
  · rw [rt' k s2 (by omega), if_pos rfl]
  · rw [rd' k s1 (by omega), if_pos rfl]
  · intro j hj hjk
    rw [rd' j (by omega) (by omega), if_neg hjk]
  · intro j hj hjk
    rw [rt' j (by omega) (by omega), if_neg hjk]

/-- **C46 (the alias cannot outgrow the storage).** A resize of an alias to a size that does not fit in
the shared storage is rejected. -/
theorem C46_alias_resize {s : Sys α} (hs : s.WF) {d t : Nat} (hl : Linked s d t) {ot : Obj}
    (ht : s.obj t = .ok ot) (N : Nat) (v : α) (hN : ot.alloc ≤ ot.first + N) :
    ∃ e, s.resize d N v = .throw e := by
  obtain ⟨od, ot', hd, ht', e1, e2, e3⟩ := hl
  rw [ht] at ht'; cases ht'
  obtain ⟨_, _, b, hb, hbl⟩ := hs t ot ht
  obtain ⟨_, _, b2, hb2, hbl2⟩ := hs d od hd
  rw [e1, hb] at hb2; cases hb2
  rcases resize_cases hs (N := N) (v := v) hd with ⟨_, c1, _⟩ | ⟨_, c2, _⟩ | ⟨_, _, e, g3⟩
  · omega
  · rw [e3] at c2; cases c2
  · exact ⟨e, g3⟩

/-- **C46 (the alias outlives its source).** Destroying the source leaves every element of the alias. -/
theorem C46_outlives {s s' : Sys α} (hs : s.WF) {d t : Nat} (hdt : d ≠ t) (hl : Linked s d t)
    (h : s.destroy t = .ok s') : ∀ k, k < s.size d → ∃ x, s.read d k = .ok x ∧ s'.read d k = .ok x := by
  obtain ⟨od, ot, hd, ht, _⟩ := hl
  intro k hk
  obtain ⟨b, x, _, _, _, g⟩ := read_eq hs hd (by simpa [Sys.size, hd] using hk)
  refine ⟨x, g, ?_⟩
  rw [← g]
  unfold Sys.destroy at h
  rw [ht, Res.ok_bind] at h
  cases h
  unfold Sys.read
  rw [obj_set_ne (Ne.symm hdt)]

/-- the hypotheses are met: a 2x3 matrix that takes the storage of a 2x3 tensor, a write through each and
a rejected resize -/
example :
    let s : Sys Int := (({ bufs := [], objs := [] } : Sys Int).create (.tens [2, 3]) 6 0).create
      (.dense 1 1) 1 9
    s.WF ∧ (s.move 1 0).Sat (fun s1 => Linked s1 1 0 ∧
      (s1.run [.write 0 4 7, .write 1 5 8, .resize 1 7 0]).Sat
        (fun s2 => s2.read 1 4 = .ok 7 ∧ s2.read 0 5 = .ok 8 ∧ s2.size 1 = 6)) := by
  refine ⟨?_, _, rfl, ⟨_, _, rfl, rfl, rfl, rfl, rfl⟩, _, rfl, rfl, rfl, rfl⟩
  intro i o ho
  rw [obj_eq] at ho
  match i, ho with
  | 0, ho => cases ho; exact ⟨by decide, fun _ => rfl, _, rfl, rfl⟩
  | 1, ho => cases ho; exact ⟨by decide, fun _ => rfl, _, rfl, rfl⟩

/-- **C46 (violated: growing the source).** Growing the source silently moves it to new storage: the alias
keeps the old one, and later writes through the source are not visible through it. -/
theorem C46_source_growth_violated :
    ¬ ∀ (s s1 s2 s3 : Sys Int), s.WF → s.move 1 0 = .ok s1 → s1.resize 0 7 0 = .ok s2 →
      s2.write 0 4 7 = .ok s3 → s3.read 1 4 = .ok 7 := by
  intro h
  have := h ((({ bufs := [], objs := [] } : Sys Int).create (.tens [2, 3]) 6 0).create (.dense 1 1) 1 9)
    _ _ _ (by
      intro i o ho
      rw [obj_eq] at ho
      match i, ho with
      | 0, ho => cases ho; exact ⟨by decide, fun _ => rfl, _, rfl, rfl⟩
      | 1, ho => cases ho; exact ⟨by decide, fun _ => rfl, _, rfl, rfl⟩) rfl rfl rfl
  revert this
  decide

/-! ### views -/

theorem owned_of_obj {s : Sys α} {i : Nat} {o : Obj} (h : s.obj i = .ok o) : s.owned o.buf = true := by
  rw [obj_eq] at h
  unfold Sys.owned
  rw [List.any_eq_true]
  exact ⟨some o, List.mem_of_getElem? h, by simp⟩

/-- **C52 (a view shows its target).** A view over positions `start .. start + size` of an object whose
storage it starts (every object that was not made by `move`): after any sequence of operations that does
not destroy, resize or re-bind the object — writes to it, operations on other objects — element `k` of the
view is element `start + k` of the object. -/
theorem C52_view {s s' : Sys α} (hs : s.WF) {i : Nat} {o : Obj} (ho : s.obj i = .ok o) (hf : o.first = 0)
    {start size : Nat} (hsz : start + size ≤ o.nnz) {w : View} (hw : s.view i start size = .ok w)
    (ops : List (Op α)) (hk : ∀ op ∈ ops, Keeps i op) (h : s.run ops = .ok s') :
    ∀ k, k < size → ∃ x, s'.viewRead w k = .ok x ∧ s'.read i (start + k) = .ok x := by
  unfold Sys.view at hw
  rw [ho, Res.ok_bind] at hw
  cases hw
  have key : s'.WF ∧ s'.obj i = .ok o := by
    clear hsz
    induction ops generalizing s with
    | nil => cases h; exact ⟨hs, ho⟩
    | cons op ops ih =>
      obtain ⟨s1, h1, h2⟩ := Res.bind_eq_ok.mp h
      obtain ⟨o', g1, _, _, _, _, _, g2⟩ := step_binding hs h1 ho (Or.inl (hk op (by simp)))
      rw [g2 (hk op (by simp))] at g1
      exact ih (step_wf hs h1) g1 (fun o ho => hk o (by simp [ho])) h2
  intro k hk
  obtain ⟨b, x, g1, _, g2, g3⟩ := read_eq key.1 key.2 (k := start + k) (by omega)
  refine ⟨x, ?_, g3⟩
  unfold Sys.viewRead
  rw [if_pos (owned_of_obj key.2), rd_of_getElem? g1, Res.ok_bind]
  rw [hf] at g2
  exact rd_of_getElem? (by rw [← g2]; congr 1; dsimp only; omega)

/-- **C52 (writing through a view).** Writing element `k` of such a view writes element `start + k` of the
object and no other. -/
theorem C52_view_write {s : Sys α} (hs : s.WF) {i : Nat} {o : Obj} (ho : s.obj i = .ok o)
    (hf : o.first = 0) {start size : Nat} (hsz : start + size ≤ o.nnz) {w : View}
    (hw : s.view i start size = .ok w) (k : Nat) (hk : k < size) (v : α) :
    ∃ s', s.viewWrite w k v = .ok s' ∧ s'.read i (start + k) = .ok v ∧
      ∀ j, j < o.nnz → j ≠ start + k → s'.read i j = s.read i j := by
  unfold Sys.view at hw
  rw [ho, Res.ok_bind] at hw
  cases hw
  obtain ⟨w1, _, b, hb, hbl⟩ := hs i o ho
  have hbuf : o.buf < s.bufs.length := by
    by_contra hc
    rw [List.getElem?_eq_none (by omega)] at hb; cases hb
  have hrd : ∀ j, j < o.nnz →
      ({ s with bufs := s.bufs.set o.buf (b.set (k + start) v) } : Sys α).read i j =
        if j = start + k then .ok v else s.read i j := by
    intro j hj
    unfold Sys.read
    have : ({ s with bufs := s.bufs.set o.buf (b.set (k + start) v) } : Sys α).obj i = .ok o := ho
    rw [this, ho, Res.ok_bind, Res.ok_bind, check_ok hj w1, Res.ok_bind, Res.ok_bind,
      rd_of_getElem? hb, Res.ok_bind]
    have : rd ({ s with bufs := s.bufs.set o.buf (b.set (k + start) v) } : Sys α).bufs o.buf =
        .ok (b.set (k + start) v) := rd_of_getElem? (List.getElem?_set_self hbuf)
    rw [this, Res.ok_bind]
    by_cases hjk : j = start + k
    · subst hjk
      rw [if_pos rfl, hf]
      rw [show 0 + (start + k) = k + start by omega]
      exact rd_of_getElem? (List.getElem?_set_self (by omega))
    · rw [if_neg hjk, hf]
      unfold rd
      rw [List.getElem?_set_ne (by omega)]
  refine ⟨{ s with bufs := s.bufs.set o.buf (b.set (k + start) v) }, ?_, ?_, ?_⟩
  · unfold Sys.viewWrite
    dsimp only
    rw [if_pos (owned_of_obj ho), rd_of_getElem? hb, Res.ok_bind, wr_ok (by omega), Res.ok_bind,
      wr_ok hbuf, Res.ok_bind]
  · rw [hrd _ (by omega), if_pos rfl]
  · intro j hj hjk
    rw [hrd _ hj, if_neg hjk]

/-- **C52 (violated: resizing the target).** Every successful `resize` of a vector that is the only owner
of its storage — even to its present size — leaves every view of it dangling: reading any element of the
view is undefined. -/
theorem C52_resize_violated {s s' : Sys α} (hs : s.WF) {i : Nat} {o : Obj} (ho : s.obj i = .ok o)
    (hk : o.kind = .vec) (sole : ∀ j o', j ≠ i → s.obj j = .ok o' → o'.buf ≠ o.buf)
    {start size : Nat} {w : View} (hw : s.view i start size = .ok w) (N : Nat) (v : α)
    (h : s.resize i N v = .ok s') (k : Nat) : ∃ e, s'.viewRead w k = .ub e := by
  unfold Sys.view at hw
  rw [ho, Res.ok_bind] at hw
  cases hw
  obtain ⟨_, _, b, hb, _⟩ := hs i o ho
  have hbuf : o.buf < s.bufs.length := by
    by_contra hc
    rw [List.getElem?_eq_none (by omega)] at hb; cases hb
  have hno : s'.owned o.buf = false := by
    rcases resize_cases hs (N := N) (v := v) ho with ⟨c, _⟩ | ⟨_, _, b', g1, g3⟩ | ⟨_, _, e, g3⟩
    · exact absurd hk c
    · rw [g3] at h
      cases h
      unfold Sys.owned
      rw [List.any_eq_false]
      intro x hx
      cases x with
      | none => simp
      | some x =>
        obtain ⟨j, hj⟩ := List.mem_iff_getElem?.mp hx
        rcases obj_set_cases (bs := s.bufs ++ [b']) ho (obj_eq.mpr hj) with ⟨_, rfl⟩ | ⟨hne, hj'⟩
        · simp; omega
        · simpa using sole j x hne hj'
    · rw [g3] at h; cases h
  refine ⟨"dangling pointer", ?_⟩
  unfold Sys.viewRead
  rw [if_neg (by rw [hno]; simp)]

/-- the hypotheses of the three theorems are met by a vector of 4 elements and another object -/
example :
    let s : Sys Int := (({ bufs := [], objs := [] } : Sys Int).create .vec 4 0).create (.dense 1 1) 1 9
    s.WF ∧ (s.view 0 1 3).Sat (fun w => (s.run [.write 0 2 7, .resize 1 5 0]).Sat (fun s' =>
      s'.viewRead w 1 = .ok 7) ∧ (s.resize 0 4 0).Sat (fun s' => s'.viewRead w 1 = .ub "dangling pointer")) := by
  refine ⟨?_, _, rfl, ⟨_, rfl, rfl⟩, _, rfl, rfl⟩
  intro i o ho
  rw [obj_eq] at ho
  match i, ho with
  | 0, ho => cases ho; exact ⟨by decide, fun _ => rfl, _, rfl, rfl⟩
  | 1, ho => cases ho; exact ⟨by decide, fun _ => rfl, _, rfl, rfl⟩

/-- **C52 (violated: views of a moved object).** A view of an object that took over part of a tensor
(offset not 0) does not show that object's elements: it starts at the beginning of the whole storage. -/
theorem C52_offset_violated :
    ¬ ∀ (s s1 : Sys Int) (w : View), s.WF → s.moveView 1 0 2 .vec 2 = .ok s1 →
      s1.view 1 0 2 = .ok w → s1.viewRead w 0 = s1.read 1 0 := by
  intro h
  have := h { bufs := [[0, 1, 2, 3], []], objs := [some ⟨.tens [4], 0, 0, 4, 4, true⟩,
    some ⟨.vec, 1, 0, 0, 0, true⟩] } _ _ (by
      intro i o ho
      rw [obj_eq] at ho
      match i, ho with
      | 0, ho => cases ho; exact ⟨by decide, fun _ => rfl, _, rfl, rfl⟩
      | 1, ho => cases ho; exact ⟨by decide, fun _ => rfl, _, rfl, rfl⟩) rfl rfl
  revert this
  decide

/-- **C46 (shape).** After `dst.move(src)`, `dst` is still of its class and has the extents `src` had. -/
theorem C46_move_shape {s s' : Sys α} {d t : Nat} {od ot : Obj} (hd : s.obj d = .ok od)
    (ht : s.obj t = .ok ot) (hc : ∀ n, ot.extents = [n] → ot.nnz = n) (h : s.move d t = .ok s') :
    ∃ o, s'.obj d = .ok o ∧ SameClass o od ∧ o.extents = ot.extents := by
  obtain ⟨od', ot', k, h1, h2, hk, rfl⟩ := move_inv h
  rw [hd] at h1; cases h1
  rw [ht] at h2; cases h2
  refine ⟨_, obj_set_self hd _, ?_⟩
  unfold moveKind at hk
  split at hk
  all_goals first | (cases hk; done) | skip
  all_goals
    rename_i e1 e2
    cases hk
    simp_all [SameClass, Obj.extents]

/-- the hypotheses are met: a `2 × 3` tensor taken over by a Dense matrix of another shape -/
example : ∃ s' o, ({ bufs := [[1, 2, 3, 4, 5, 6], [7]], objs := [some ⟨.tens [2, 3], 0, 0, 6, 6, true⟩,
      some ⟨.dense 1 1, 1, 0, 1, 1, true⟩] } : Sys Int).move 1 0 = .ok s' ∧ s'.obj 1 = .ok o ∧
      o.extents = [2, 3] := ⟨_, _, rfl, rfl, rfl⟩

end Verif.Shared
