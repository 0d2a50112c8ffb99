import Verif.Model.Mpi
import Verif.Props.Reduce

/-!
# C48, C63: MPI wrappers and distributed reductions
-/

namespace Verif
namespace Mpi

variable {α : Type}

/-! ## Point-to-point messages -/

/-- What holds in every reachable state, for every source, destination and tag: the messages received so far, in
the order of the receive calls, followed by the messages in transit, are the messages sent; the receives that got a
message, followed by the pending ones, are the receive calls. -/
structure Fifo (w : World α) : Prop where
  msgs : ∀ s d t, (w.got s d t).map Prod.snd ++ w.chan s d t = w.sent s d t
  posts : ∀ s d t, (w.got s d t).map Prod.fst ++ w.posted s d t = w.calls s d t

theorem Fifo.push {w : World α} (h : Fifo w) (src dst tag : Nat) (m : List α) : Fifo (w.push src dst tag m) where
  msgs := fun s d t => by
    simp only [World.push, upd3]
    split_ifs with hc
    · obtain ⟨rfl, rfl, rfl⟩ := hc
      rw [← List.append_assoc, h.msgs]
    · exact h.msgs s d t
  posts := fun s d t => h.posts s d t

theorem Fifo.post {w : World α} (h : Fifo w) (src dst tag : Nat) (q : Tgt) : Fifo (w.post src dst tag q) where
  msgs := fun s d t => h.msgs s d t
  posts := fun s d t => by
    simp only [World.post, upd3]
    split_ifs with hc
    · obtain ⟨rfl, rfl, rfl⟩ := hc
      rw [← List.append_assoc, h.posts]
    · exact h.posts s d t

theorem Fifo.of_eq {w w' : World α} (h : Fifo w) (h1 : w'.got = w.got) (h2 : w'.chan = w.chan)
    (h3 : w'.sent = w.sent) (h4 : w'.posted = w.posted) (h5 : w'.calls = w.calls) : Fifo w' where
  msgs := fun s d t => by rw [h1, h2, h3]; exact h.msgs s d t
  posts := fun s d t => by rw [h1, h4, h5]; exact h.posts s d t

theorem Fifo.step {w w' : World α} (h : Fifo w) (e : Ev) (hs : Mpi.step w e = .ok w') : Fifo w' := by
  cases e with
  | send r a dst tag =>
    simp only [Mpi.step] at hs
    obtain ⟨v, -, hs⟩ := Res.bind_eq_ok.mp hs
    obtain ⟨_, -, hs⟩ := Res.bind_eq_ok.mp hs
    injection hs with hs; subst hs; exact h.push ..
  | sendScalar r a dst tag =>
    simp only [Mpi.step] at hs
    obtain ⟨v, -, hs⟩ := Res.bind_eq_ok.mp hs
    obtain ⟨_, -, hs⟩ := Res.bind_eq_ok.mp hs
    injection hs with hs; subst hs; exact h.push ..
  | recv r a src tag =>
    simp only [Mpi.step] at hs
    obtain ⟨v, -, hs⟩ := Res.bind_eq_ok.mp hs
    obtain ⟨_, -, hs⟩ := Res.bind_eq_ok.mp hs
    injection hs with hs; subst hs; exact h.post ..
  | recvScalar r a src tag =>
    simp only [Mpi.step] at hs
    obtain ⟨v, -, hs⟩ := Res.bind_eq_ok.mp hs
    obtain ⟨_, -, hs⟩ := Res.bind_eq_ok.mp hs
    injection hs with hs; subst hs; exact h.post ..
  | isend r a dst tag =>
    simp only [Mpi.step] at hs
    obtain ⟨v, -, hs⟩ := Res.bind_eq_ok.mp hs
    obtain ⟨_, -, hs⟩ := Res.bind_eq_ok.mp hs
    injection hs with hs; subst hs; exact (h.push r dst tag v).of_eq rfl rfl rfl rfl rfl
  | isendVector r a dst tag =>
    simp only [Mpi.step] at hs
    obtain ⟨v, -, hs⟩ := Res.bind_eq_ok.mp hs
    obtain ⟨_, -, hs⟩ := Res.bind_eq_ok.mp hs
    split_ifs at hs
    injection hs with hs; subst hs; exact (h.push r dst tag v).of_eq rfl rfl rfl rfl rfl
  | isendScalar r a dst tag =>
    simp only [Mpi.step] at hs
    obtain ⟨v, -, hs⟩ := Res.bind_eq_ok.mp hs
    obtain ⟨_, -, hs⟩ := Res.bind_eq_ok.mp hs
    cases hs
  | irecv r a src tag =>
    simp only [Mpi.step] at hs
    obtain ⟨v, -, hs⟩ := Res.bind_eq_ok.mp hs
    obtain ⟨_, -, hs⟩ := Res.bind_eq_ok.mp hs
    injection hs with hs; subst hs; exact (h.post src r tag (.addr a)).of_eq rfl rfl rfl rfl rfl
  | irecvScalar r a src tag =>
    simp only [Mpi.step] at hs
    obtain ⟨v, -, hs⟩ := Res.bind_eq_ok.mp hs
    obtain ⟨_, -, hs⟩ := Res.bind_eq_ok.mp hs
    injection hs with hs; subst hs; exact (h.post src r tag .gone).of_eq rfl rfl rfl rfl rfl
  | waitall r =>
    simp only [Mpi.step] at hs
    split at hs <;> (injection hs with hs; subst hs; exact h.of_eq rfl rfl rfl rfl rfl)
  | deliver src dst tag =>
    simp only [Mpi.step] at hs
    cases hc : w.chan src dst tag with
    | nil => simp only [hc] at hs; injection hs with hs; subst hs; exact h
    | cons m ms =>
      cases hp : w.posted src dst tag with
      | nil => simp only [hc, hp] at hs; injection hs with hs; subst hs; exact h
      | cons p ps =>
        simp only [hc, hp] at hs
        have key : ∀ w'' : World α, w''.got = upd3 w.got src dst tag (w.got src dst tag ++ [(p, m)]) →
            w''.chan = upd3 w.chan src dst tag ms → w''.sent = w.sent →
            w''.posted = upd3 w.posted src dst tag ps → w''.calls = w.calls → Fifo w'' := by
          intro w'' e1 e2 e3 e4 e5
          constructor
          · intro s d t
            rw [e1, e2, e3]
            simp only [upd3]
            split_ifs with hq
            · obtain ⟨rfl, rfl, rfl⟩ := hq
              rw [← h.msgs, hc]; simp
            · exact h.msgs s d t
          · intro s d t
            rw [e1, e4, e5]
            simp only [upd3]
            split_ifs with hq
            · obtain ⟨rfl, rfl, rfl⟩ := hq
              rw [← h.posts, hp]; simp
            · exact h.posts s d t
        cases ht : p.tgt with
        | copy => simp only [ht] at hs; injection hs with hs; subst hs; exact key _ rfl rfl rfl rfl rfl
        | gone => simp only [ht] at hs; cases hs
        | addr a =>
          simp only [ht] at hs
          obtain ⟨b, -, hs⟩ := Res.bind_eq_ok.mp hs
          split_ifs at hs
          injection hs with hs; subst hs; exact key _ rfl rfl rfl rfl rfl

theorem Fifo.run {w w' : World α} (h : Fifo w) (es : List Ev) (hs : Mpi.run w es = .ok w') : Fifo w' := by
  induction es generalizing w with
  | nil => injection hs with hs; subst hs; exact h
  | cons e es ih =>
    simp only [Mpi.run] at hs
    obtain ⟨w1, h1, h2⟩ := Res.bind_eq_ok.mp hs
    exact ih (h.step e h1) h2

/-- **C48 (order).** In every execution, with any number of processes and any interleaving, the `k`-th receive call
for a source, destination and tag gets exactly the `k`-th message sent there. -/
theorem C48_fifo (buf : Nat → Nat → Option (List α)) (es : List Ev) {w : World α}
    (hs : run (World.init buf) es = .ok w) (s d t k : Nat) (hk : k < (w.got s d t).length) :
    (w.calls s d t)[k]? = some (w.got s d t)[k].1 ∧ (w.sent s d t)[k]? = some (w.got s d t)[k].2 := by
  have h : Fifo w := Fifo.run (w := World.init buf) ⟨fun _ _ _ => rfl, fun _ _ _ => rfl⟩ es hs
  rw [← h.posts, ← h.msgs]
  constructor
  · rw [List.getElem?_append_left (by simpa using hk)]; simp [hk]
  · rw [List.getElem?_append_left (by simpa using hk)]; simp [hk]

/-- **C48 (vectors).** Receiving into a vector of the same size makes it equal to the message and changes no other
buffer. -/
theorem C48_deliver (w : World α) (src dst tag a id : Nat) (m b : List α) (ms : List (List α)) (ps : List Post)
    (hc : w.chan src dst tag = m :: ms) (hp : w.posted src dst tag = ⟨id, .addr a⟩ :: ps)
    (hb : w.buf dst a = some b) (hl : b.length = m.length) :
    ∃ w', step w (.deliver src dst tag) = .ok w' ∧ w'.buf dst a = some m ∧
      (∀ r c, (r, c) ≠ (dst, a) → w'.buf r c = w.buf r c) ∧ id ∈ w'.done := by
  simp only [step, hc, hp, World.get, hb, Res.ok_bind, hl, Nat.lt_irrefl, if_false]
  refine ⟨_, rfl, ?_, ?_, by simp⟩
  · simp [upd2, ← hl]
  · intro r c hrc
    have : ¬ (r = dst ∧ c = a) := fun h => hrc (by rw [h.1, h.2])
    simp only [upd2, if_neg this]

/-- **C48 (one exchange).** `Send(v)` on one process and `Recv(u)` on another with equal sizes: after the message
is delivered `u = v`. -/
theorem C48_exchange (buf : Nat → Nat → Option (List α)) (src dst tag a b : Nat) (v u : List α)
    (hv : buf src a = some v) (hu : buf dst b = some u) (hl : u.length = v.length) (h0 : v ≠ []) (first : Bool) :
    ∃ w, run (World.init buf) ((if first then [.send src a dst tag, .recv dst b src tag]
      else [.recv dst b src tag, .send src a dst tag]) ++ [.deliver src dst tag]) = .ok w ∧ w.buf dst b = some v := by
  have hv0 : ∃ x, rd v 0 = .ok x := by
    cases v with
    | nil => exact absurd rfl h0
    | cons x xs => exact ⟨x, rfl⟩
  have hu0 : ∃ x, rd u 0 = .ok x := by
    cases u with
    | nil => exact absurd (List.length_eq_zero_iff.mp hl.symm) h0
    | cons x xs => exact ⟨x, rfl⟩
  obtain ⟨x, hx⟩ := hv0
  obtain ⟨y, hy⟩ := hu0
  cases first with
  | true =>
    simp only [if_true, List.cons_append, List.nil_append, run, step, World.get, World.init, hv, hu, Res.ok_bind,
      firstElement, hx, hy, World.push, World.post, upd3]
    simp [hu, hl, upd2]
  | false =>
    simp only [Bool.false_eq_true, if_false, List.cons_append, List.nil_append, run, step, World.get, World.init,
      hv, hu, Res.ok_bind, firstElement, hx, hy, World.push, World.post, upd3]
    simp [hu, hl, upd2]

/-- **C48 (waiting).** When `Waitall` returns (clears the requests) every receive it has a request for is done. -/
theorem C48_waitall (w w' : World α) (r : Nat) (hs : step w (.waitall r) = .ok w') (hne : w.reqs r ≠ [])
    (hcl : w'.reqs r = []) (i : Nat) (hi : some i ∈ w.reqs r) : i ∈ w.done := by
  simp only [step] at hs
  split at hs
  · rename_i hall
    rw [List.all_eq_true] at hall
    have := hall _ hi
    simpa using this
  · injection hs with hs; subst hs; exact absurd hcl hne

/-- **C48 is violated (scalar receive).** `Recv(val, ...)` of a scalar never changes the caller's variable: its
parameter is a copy.  Whatever arrives, all buffers stay as they are. -/
theorem C48_recv_scalar_violated (w w' : World α) (src dst tag id : Nat) (m : List α) (ms : List (List α))
    (ps : List Post) (hc : w.chan src dst tag = m :: ms) (hp : w.posted src dst tag = ⟨id, .copy⟩ :: ps)
    (hs : step w (.deliver src dst tag) = .ok w') : w'.buf = w.buf ∧ id ∈ w'.done := by
  simp only [step, hc, hp] at hs
  injection hs with hs; subst hs
  exact ⟨rfl, by simp⟩

/-- The receive of a scalar in an execution: process 0 sends 7, process 1 receives into its variable 5. -/
example : ∃ w : World Int, run (World.init (fun r _ => some (if r = 0 then [7] else [5])))
      [.sendScalar 0 0 1 3, .recvScalar 1 0 0 3, .deliver 0 1 3] = .ok w ∧
    w.got 0 1 3 = [(⟨0, .copy⟩, [7])] ∧ w.buf 1 0 = some [5] :=
  ⟨_, rfl, rfl, rfl⟩

/-- **C48 is violated (non-blocking scalars).** `Irecv` of a scalar writes to a dead object, `Isend` of a scalar
reads one. -/
theorem C48_async_scalar_violated (buf : Nat → Nat → Option (List α)) (src dst tag a b : Nat) (x y : α)
    (ha : buf src a = some [x]) (hb : buf dst b = some [y]) :
    run (World.init buf) [.send src a dst tag, .irecvScalar dst b src tag, .deliver src dst tag] =
      .ub "writes to a dead object" ∧
    run (World.init buf) [.isendScalar src a dst tag] = .ub "reads a dead object" := by
  constructor
  · simp [run, step, World.get, World.init, ha, hb, Res.ok_bind, firstElement, rd, World.push, World.post, upd3]
  · simp only [run, step, World.get, World.init, ha, Res.ok_bind, firstElement, rd]
    rfl

/-- **C48 is violated (Isend of a vector).** `Isend` of a `monolish::vector` adds no request: as the first
operation it uses `back()` of an empty vector; after an `Irecv` it replaces the request of that receive, so that
`Waitall` returns before the message has arrived. -/
theorem C48_isend_vector_violated (buf : Nat → Nat → Option (List α)) (r s a b tag : Nat) (v u : List α)
    (hv : buf r a = some v) (hu : buf r b = some u) (hv0 : v ≠ []) (hu0 : u ≠ []) :
    (run (World.init buf) [.isendVector r a s tag] = .ub "back() of an empty vector") ∧
    ∃ w, run (World.init buf) [.irecv r b s tag, .isendVector r a s tag, .waitall r] = .ok w ∧
      w.reqs r = [] ∧ w.posted s r tag ≠ [] ∧ w.done = [] ∧ w.buf r b = some u := by
  obtain ⟨x, hx⟩ : ∃ x, rd v 0 = .ok x := by
    cases v with
    | nil => exact absurd rfl hv0
    | cons x xs => exact ⟨x, rfl⟩
  obtain ⟨y, hy⟩ : ∃ x, rd u 0 = .ok x := by
    cases u with
    | nil => exact absurd rfl hu0
    | cons x xs => exact ⟨x, rfl⟩
  constructor
  · simp only [run, step, World.get, World.init, hv, Res.ok_bind, firstElement, hx]
    rfl
  · simp [run, step, World.get, World.init, hv, hu, Res.ok_bind, firstElement, hx, hy, World.push, World.post, upd3,
      upd1]

/-- **C48 is violated (empty vectors).** Sending an empty vector reads its first element. -/
theorem C48_empty_violated (buf : Nat → Nat → Option (List α)) (r s a tag : Nat) (h : buf r a = some []) :
    ∃ e, run (World.init buf) [.send r a s tag] = .ub e := by
  simp only [run, step, World.get, World.init, h, Res.ok_bind, firstElement, rd]
  exact ⟨_, rfl⟩

/-! ## Collective operations -/

theorem firstElement_ok {v : List α} (h : v ≠ []) : firstElement v = .ok () := by
  cases v with
  | nil => exact absurd rfl h
  | cons x xs => rfl

theorem forN_firstElement (P : Nat) (f : Nat → List α) (h : ∀ i, i < P → f i ≠ []) :
    forN P (fun i _ => firstElement (f i)) () = .ok () := by
  obtain ⟨u, h1, -⟩ := forN_sat (n := P) (body := fun i (_ : Unit) => firstElement (f i)) (s := ())
    (fun _ _ => True) trivial (fun i _ hi _ => by rw [firstElement_ok (h i hi)]; exact Res.sat_ok.mpr trivial)
  exact h1

/-- **C48 (Bcast).** With vectors of equal size every process has the root's vector afterwards. -/
theorem C48_bcast (P root : Nat) (hr : root < P) (vec : Nat → List α)
    (hl : ∀ i, i < P → (vec i).length = (vec root).length) (h0 : vec root ≠ []) :
    ∃ out, bcast P root vec = .ok out ∧ ∀ i, i < P → out i = vec root := by
  unfold bcast
  rw [forN_firstElement P vec (fun i hi h => h0 (List.length_eq_zero_iff.mp (by rw [← hl i hi, h]; rfl))),
    Res.ok_bind, if_pos (by simpa using hl)]
  exact ⟨_, rfl, fun i hi => by simp [hi]⟩

/-- **C48 is violated (Scatter).** `Scatter` never changes a receive vector, and on two or more processes it has no
legal call with a non-empty vector: the send count is the whole vector for each process. -/
theorem C48_scatter_violated (P root : Nat) (hr : root < P) (send recv : Nat → List α) :
    (∀ out, scatter P root send recv = .ok out → out = recv) ∧
    (2 ≤ P → ∀ out, scatter P root send recv ≠ .ok out) := by
  constructor
  · intro out h
    unfold scatter at h
    obtain ⟨_, -, h⟩ := Res.bind_eq_ok.mp h
    obtain ⟨_, -, h⟩ := Res.bind_eq_ok.mp h
    obtain ⟨_, -, h⟩ := Res.bind_eq_ok.mp h
    injection h with h; exact h.symm
  · intro hP out h
    unfold scatter at h
    obtain ⟨_, h1, h⟩ := Res.bind_eq_ok.mp h
    obtain ⟨_, -, h⟩ := Res.bind_eq_ok.mp h
    obtain ⟨o, h3, -⟩ := Res.bind_eq_ok.mp h
    unfold mpiScatter at h3
    split_ifs at h3 with g1 g2
    have hne : send root ≠ [] := by
      intro he
      have : ∀ n, root < n → forN n (fun i (_ : Unit) => firstElement (send i)) () ≠ .ok () := by
        intro n
        induction n with
        | zero => intro h; omega
        | succ n ih =>
          intro hn hh
          simp only [forN, forFrom_add] at hh
          obtain ⟨_, q1, q2⟩ := Res.bind_eq_ok.mp hh
          rcases Nat.lt_succ_iff_lt_or_eq.mp hn with hlt | heq
          · exact ih hlt q1
          · subst heq
            simp only [forFrom, Nat.zero_add, he] at q2
            cases q2
      exact this P hr h1
    have : 0 < (send root).length := List.length_pos_iff.mpr hne
    apply g2
    refine ⟨hr, ?_⟩
    calc (send root).length = 1 * (send root).length := (Nat.one_mul _).symm
      _ < P * (send root).length := Nat.mul_lt_mul_of_pos_right (by omega) this

/-- **C48 is violated (Gather).** Likewise for `Gather`. -/
theorem C48_gather_violated (P root : Nat) (hr : root < P) (send recv : Nat → List α) :
    (∀ out, gather P root send recv = .ok out → out = recv) ∧
    (2 ≤ P → recv root ≠ [] → ∀ out, gather P root send recv ≠ .ok out) := by
  constructor
  · intro out h
    unfold gather at h
    obtain ⟨_, -, h⟩ := Res.bind_eq_ok.mp h
    obtain ⟨_, -, h⟩ := Res.bind_eq_ok.mp h
    obtain ⟨_, -, h⟩ := Res.bind_eq_ok.mp h
    injection h with h; exact h.symm
  · intro hP hne out h
    unfold gather at h
    obtain ⟨_, -, h⟩ := Res.bind_eq_ok.mp h
    obtain ⟨_, -, h⟩ := Res.bind_eq_ok.mp h
    obtain ⟨o, h3, -⟩ := Res.bind_eq_ok.mp h
    unfold mpiGather at h3
    split_ifs at h3 with g1 g2
    have : 0 < (recv root).length := List.length_pos_iff.mpr hne
    apply g2
    calc (recv root).length = 1 * (recv root).length := (Nat.one_mul _).symm
      _ < P * (recv root).length := Nat.mul_lt_mul_of_pos_right (by omega) this

/-- A single process: `Scatter` is legal and the receive vector `[0, 0]` does not get `[1, 2]`. -/
example : ∃ out : Nat → List Int, scatter 1 0 (fun _ => [1, 2]) (fun _ => [0, 0]) = .ok out ∧ out 0 = [0, 0] :=
  ⟨_, rfl, rfl⟩

/-- **C48 is violated (Initialized).** `Initialized()` returns true exactly if MPI is **not** initialised. -/
theorem C48_initialized_violated (flag : Bool) : initialized flag = !flag := by cases flag <;> rfl

/-- **C48 is violated (Allreduce).** The call of `MPI_Allreduce` passes overlapping buffers, which the MPI standard
does not allow; a library that enforces this rejects every call. -/
theorem C48_allreduce_violated [Zero α] [Add α] (vals : List α) :
    allreduceSum false vals = .ub "overlapping buffers" := rfl

/-! ## Distributed reductions -/

theorem eachRank_ok {β : Type} (f : Nat → Res β) (g : Nat → β) (l : List Nat) (h : ∀ r ∈ l, f r = .ok (g r)) :
    eachRank f l = .ok (l.map g) := by
  induction l with
  | nil => rfl
  | cons r rs ih =>
    simp only [eachRank, h r (by simp), Res.ok_bind, ih (fun q hq => h q (by simp [hq])), List.map_cons]

theorem sum_range_get [AddCommMonoid α] (x : List α) : ∑ i ∈ Finset.range x.length, x.getD i 0 = x.sum := by
  induction x with
  | nil => simp
  | cons a l ih =>
    rw [List.length_cons, Finset.sum_range_succ', List.sum_cons, ← ih]
    simp [add_comm]

theorem allreduce_eq [AddCommMonoid α] (l : List α) :
    allreduceSum true l = .ok (List.replicate l.length l.sum) := by
  unfold allreduceSum
  simp [List.map_const', List.sum_eq_foldr]

theorem sum_flatMap [AddCommMonoid α] (l : List Nat) (x : Nat → List α) :
    (l.flatMap x).sum = (l.map (fun r => (x r).sum)).sum := by
  induction l with
  | nil => simp
  | cons r rs ih => simp [ih]

/-- **C63 (sum).** With `P` processes each holding a part, `blas::sum` returns the sum of the whole distributed
vector to every process, whatever the partition (given a library that accepts the overlapping buffers). -/
theorem C63_sum [AddCommMonoid α] (P : Nat) (t : Nat → RTree) (x : Nat → List α)
    (ht : ∀ r, r < P → (t r).Legal (x r).length) :
    distSum true P t x = .ok (List.replicate P ((List.range P).flatMap x).sum) := by
  unfold distSum
  rw [eachRank_ok _ (fun r => (x r).sum), Res.ok_bind, allreduce_eq, sum_flatMap]
  · simp
  · intro r hr
    rw [C25_sum (t r) _ (ht r (List.mem_range.mp hr)) (x r) 0 (fun i => (x r).getD i 0), sum_range_get]
    intro i hi
    simp [List.getD, List.getElem?_eq_getElem hi]

/-- **C63 (nrm1, asum).** -/
theorem C63_nrm1 [AddCommMonoid α] (absf : α → α) (P : Nat) (t : Nat → RTree) (x : Nat → List α)
    (ht : ∀ r, r < P → (t r).Legal (x r).length) :
    distNrm1 absf true P t x = .ok (List.replicate P (((List.range P).flatMap x).map absf).sum) := by
  unfold distNrm1
  rw [eachRank_ok _ (fun r => ((x r).map absf).sum), Res.ok_bind, allreduce_eq, List.map_flatMap, sum_flatMap]
  · simp
  · intro r hr
    rw [C25_nrm1 absf (t r) _ (ht r (List.mem_range.mp hr)) (x r) 0 (fun i => (x r).getD i 0)]
    · congr 1
      rw [← sum_range_get ((x r).map absf), List.length_map]
      apply Finset.sum_congr rfl
      intro i hi
      have hi' := Finset.mem_range.mp hi
      simp [List.getD, List.getElem?_eq_getElem hi']
    intro i hi
    simp [List.getD, List.getElem?_eq_getElem hi]

theorem dot_local [NonUnitalNonAssocSemiring α] (t : RTree) (x y : List α) (h : x.length = y.length)
    (ht : t.Legal x.length) :
    dotCore t x 0 x.length y 0 y.length = .ok (List.zipWith (· * ·) x y).sum := by
  rw [← h, C25_dot t _ ht x y 0 0 (fun i => x.getD i 0) (fun i => y.getD i 0)]
  · congr 1
    rw [← sum_range_get (List.zipWith (· * ·) x y)]
    have hl : (List.zipWith (· * ·) x y).length = x.length := by simp [h]
    rw [hl]
    apply Finset.sum_congr rfl
    intro i hi
    have hi' := Finset.mem_range.mp hi
    have hy : i < y.length := by omega
    have hz : i < (List.zipWith (· * ·) x y).length := by rw [hl]; exact hi'
    simp only [List.getD, List.getElem?_eq_getElem hi', List.getElem?_eq_getElem hy, List.getElem?_eq_getElem hz]
    simp
  · intro i hi; simp [List.getD, List.getElem?_eq_getElem hi]
  · intro i hi
    have hy : i < y.length := by omega
    simp [List.getD, List.getElem?_eq_getElem hy]

theorem zip_flatMap [Mul α] (l : List Nat) (x y : Nat → List α) (h : ∀ r ∈ l, (x r).length = (y r).length) :
    List.zipWith (· * ·) (l.flatMap x) (l.flatMap y) = l.flatMap (fun r => List.zipWith (· * ·) (x r) (y r)) := by
  induction l with
  | nil => simp
  | cons r rs ih =>
    simp only [List.flatMap_cons]
    rw [List.zipWith_append (h r (by simp)), ih (fun q hq => h q (by simp [hq]))]

/-- **C63 (dot).** -/
theorem C63_dot [NonUnitalNonAssocSemiring α] (P : Nat) (t : Nat → RTree) (x y : Nat → List α)
    (hl : ∀ r, r < P → (x r).length = (y r).length) (ht : ∀ r, r < P → (t r).Legal (x r).length) :
    distDot true P t x y = .ok (List.replicate P
      (List.zipWith (· * ·) ((List.range P).flatMap x) ((List.range P).flatMap y)).sum) := by
  unfold distDot
  rw [eachRank_ok _ (fun r => (List.zipWith (· * ·) (x r) (y r)).sum), Res.ok_bind, allreduce_eq,
    zip_flatMap _ _ _ (fun r hr => hl r (List.mem_range.mp hr)), sum_flatMap]
  · simp
  · intro r hr
    exact dot_local _ _ _ (hl r (List.mem_range.mp hr)) (ht r (List.mem_range.mp hr))

/-- **C63 (nrm2).** The root is taken of the global sum of squares. -/
theorem C63_nrm2 [NonUnitalNonAssocSemiring α] (sqrtf : α → α) (P : Nat) (t : Nat → RTree) (x : Nat → List α)
    (ht : ∀ r, r < P → (t r).Legal (x r).length) :
    distNrm2 sqrtf true P t x = .ok (List.replicate P
      (sqrtf ((((List.range P).flatMap x).map (fun u => u * u)).sum))) := by
  unfold distNrm2
  rw [eachRank_ok _ (fun r => (List.zipWith (· * ·) (x r) (x r)).sum), Res.ok_bind, allreduce_eq, Res.ok_bind]
  · have h := zip_flatMap (List.range P) x x (fun _ _ => rfl)
    have e : List.zipWith (· * ·) ((List.range P).flatMap x) ((List.range P).flatMap x) =
        ((List.range P).flatMap x).map (fun u => u * u) := by simp [List.zipWith_self]
    rw [← e, h, sum_flatMap]
    simp
  · intro r hr
    exact dot_local _ _ _ rfl (ht r (List.mem_range.mp hr))

/-- Two processes with 2 and 1 elements. -/
example : distDot true 2 (fun r => if r = 0 then .thread [1, 0] else .thread [0])
    (fun r => if r = 0 then [1, 2] else [3]) (fun r => if r = 0 then [4, 5] else [(6 : Int)]) = .ok [32, 32] := rfl

end Mpi
end Verif
