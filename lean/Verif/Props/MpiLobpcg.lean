import Verif.Lemmas.MpiLobpcgLock

/-!
C118: LOBPCG called by all processes of an MPI job.
-/

namespace Verif.MpiLobpcg

open Verif.Solver Verif.Lapack Verif.MpiSolver Verif.Lobpcg

variable {α : Type} {P : Nat} {N : Num α} {comb : (Fin P → α) → α} {ns : Fin P → Nat} {m : Nat}

/-- **C118**, one process: the run in an MPI build is the run of C70 to C72. -/
theorem C118_one_process (L : Lib α) (cfg : Cfg α) (A : Mat α) (create : Res (List α → Res (List α))) (l : List α)
    (xin : List (List α)) (xcol : Nat) (rs : Option (List (List α))) (fuel : Nat) :
    Completes (fun v : Fin 1 → α => v 0) (fun _ => standard N L cfg A create l xin xcol rs fuel)
      (fun _ => asRes (Lobpcg.standard N L cfg A create l xin xcol rs fuel)) := by
  have : solo (standard N L cfg A create l xin xcol rs fuel) =
      asRes (Lobpcg.standard N L cfg A create l xin xcol rs fuel) := by
    unfold standard Lobpcg.standard
    dsimp only
    split
    · rfl
    split
    · rfl
    rw [solo_bind, solo_loc]
    cases create with
    | ok pc =>
      rw [Res.ok_bind, Res.ok_bind, solo_bind, solo_initial, Res.ok_bind, solo_bind, solo_mapProc (solo_initVec A A.col)]
      cases mapRes (Lobpcg.initVec N A A.col) (Lobpcg.initial N l.length rs xin) with
      | ok t =>
        rw [Res.ok_bind, Res.ok_bind]
        exact solo_loop (fun iter b s => solo_pass (fun k S p i s => solo_column _ _ _ _ _ _ _ _ _ _) s) _ _ _ _ _
      | throw e => rfl
      | abort e => rfl
      | ub e => rfl
    | throw e => rfl
    | abort e => rfl
    | ub e => rfl
  rw [← this]
  exact completes_solo _

/-- **C118**, one process, generalised problem -/
theorem C118_one_process_generalized (L : Lib α) (cfg : Cfg α) (A B : Mat α) (create : Res (List α → Res (List α)))
    (l : List α) (xin : List (List α)) (xcol : Nat) (itype : Int) (rs : Option (List (List α))) (fuel : Nat) :
    Completes (fun v : Fin 1 → α => v 0) (fun _ => generalized N L cfg A B create l xin xcol itype rs fuel)
      (fun _ => asRes (Lobpcg.generalized N L cfg A B create l xin xcol itype rs fuel)) := by
  have : solo (generalized N L cfg A B create l xin xcol itype rs fuel) =
      asRes (Lobpcg.generalized N L cfg A B create l xin xcol itype rs fuel) := by
    unfold generalized Lobpcg.generalized
    dsimp only
    rw [solo_bind, solo_loc]
    cases cassert (decide (itype = 1)) with
    | ok u =>
      rw [Res.ok_bind, Res.ok_bind]
      split
      · rfl
      split
      · rfl
      split
      · rfl
      rw [solo_bind, solo_loc]
      cases create with
      | ok pc =>
        rw [Res.ok_bind, Res.ok_bind, solo_bind, solo_initial, Res.ok_bind, solo_bind,
          solo_mapProc (solo_ginitVec A B A.col)]
        cases mapRes (Lobpcg.ginitVec N A B A.col) (Lobpcg.initial N l.length rs xin) with
        | ok t =>
          rw [Res.ok_bind, Res.ok_bind]
          exact solo_loop (fun iter b s => solo_pass (fun k S p i s => solo_gcolumn _ _ _ _ _ _ _ _ _ _ _) s) _ _ _ _ _
        | throw e => rfl
        | abort e => rfl
        | ub e => rfl
      | throw e => rfl
      | abort e => rfl
      | ub e => rfl
    | throw e => rfl
    | abort e => rfl
    | ub e => rfl
  rw [← this]
  exact completes_solo _

/-! ### Processes that all can solve their projected problems -/

/-- after one column: all stop for a NaN, or all go on, with the same residual -/
def ColRes (g : Bool) (m : Nat) (ns : Fin P → Nat) (iter : Nat) (r : Fin P → Sum (Lobpcg.Out α) (St α × α)) : Prop :=
  (∃ (resid : α) (l : Fin P → List α) (x : Fin P → List (List α)), ∀ i,
    r i = .inl ⟨RESIDUAL_NAN, l i, x i, iter + 1, resid⟩ ∧ (l i).length = m ∧ Rows m (ns i) (x i)) ∨
  (∃ (resid : α) (s' : Fin P → St α), ∀ i, r i = .inr (s' i, resid) ∧ StOk g m (ns i) (s' i))

def LockBody (comb : (Fin P → α) → α) (g : Bool) (m : Nat) (ns : Fin P → Nat) (iter : Nat)
    (body : Fin P → Nat → List α → St α → Nat → St α → Proc α (Sum (Lobpcg.Out α) (St α × α))) : Prop :=
  ∀ k, (k = 2 * m ∨ k = 3 * m) → ∀ S : Fin P → List α, (∀ i, (S i).length = k * k) → ∀ prev s : Fin P → St α,
    (∀ i, StOk g m (ns i) (prev i)) → (∀ i, StOk g m (ns i) (s i)) → ∀ j, j < m →
    Lock comb (fun i => body i k (S i) (prev i) j (s i)) (ColRes g m ns iter)

theorem lock_column {As : Fin P → Mat α} (hr : ∀ i, (As i).row = ns i) (hA : ∀ i, Works (ns i) (As i).mv)
    {pcs : Fin P → List α → Res (List α)} (hp : ∀ i, Works (ns i) (pcs i)) (iter : Nat) :
    LockBody comb false m ns iter (fun i k S prev j s => column N (As i) (pcs i) m (ns i) k S iter prev j s) := by
  intro k hk S hS prev s hprev hs j hj
  unfold column
  refine lock_loc (Q := fun _ _ => True) (fun i => ?_) fun li _ => ?_
  · exact ⟨_, rd_ok (by rw [(hs i).lam]; omega), trivial⟩
  refine lock_loc (Q := fun _ l => l.length = m) (fun i => ?_) fun l hl => ?_
  · exact ⟨_, wr_ok (by rw [(hs i).l]; exact hj), by rw [List.length_set]; exact (hs i).l⟩
  refine lock_loc (fun i => coeffs_ok N hk (hS i) hj) fun b hb => ?_
  dsimp only
  refine lock_loc (fun i => combine_ok N (hb i) (hprev i).F (List.length_replicate ..)) fun px hpx => ?_
  refine lock_loc (fun i => combine_ok N (hb i) (hprev i).G (List.length_replicate ..)) fun PX hPX => ?_
  refine lock_nrm2 fun np => lock_nrm2 fun nx => ?_
  refine lock_loc (fun i => axpyz_ok N (N.neg (li i)) (n := ns i) (by rw [scal_length]; exact (hpx i).2)
    (by rw [scal_length]; exact (hPX i).2)) fun w hw => ?_
  refine lock_loc (Q := fun i v => v.length = ns i)
    (fun i => by obtain ⟨y, h1, h2⟩ := hp i (w i) (hw i); exact ⟨y, h2, h1⟩) fun w' hw' => ?_
  refine lock_nrm2 fun r => ?_
  split
  · refine lock_pure (Or.inl ⟨r, l, _, fun i => ⟨rfl, hl i, ?_⟩⟩)
    exact (hs i).F.x.set j (by rw [scal_length]; exact (hpx i).2)
  · refine lock_loc (fun i => mvInto_ok (hr i) (hA i) (by rw [scal_length]; exact hw' i)) fun W hW => ?_
    refine lock_pure (Or.inr ⟨r, _, fun i => ⟨rfl, ?_⟩⟩)
    exact { F := (hs i).F.put j (by rw [scal_length]; exact hw' i) (by rw [scal_length]; exact (hpx i).2)
              (by rw [scal_length]; exact (hpx i).1)
            G := (hs i).G.put j (hW i) (by rw [scal_length]; exact (hPX i).2) (by rw [scal_length]; exact (hPX i).1)
            H := fun h => nomatch h
            l := hl i
            lam := (hs i).lam }

theorem lock_gcolumn {As Bs : Fin P → Mat α} (hr : ∀ i, (As i).row = ns i) (hA : ∀ i, Works (ns i) (As i).mv)
    (hrB : ∀ i, (Bs i).row = ns i) (hB : ∀ i, Works (ns i) (Bs i).mv)
    {pcs : Fin P → List α → Res (List α)} (hp : ∀ i, Works (ns i) (pcs i)) (iter : Nat) :
    LockBody comb true m ns iter (fun i k S prev j s => gcolumn N (As i) (Bs i) (pcs i) m (ns i) k S iter prev j s) := by
  intro k hk S hS prev s hprev hs j hj
  unfold gcolumn
  refine lock_loc (Q := fun _ _ => True) (fun i => ?_) fun li _ => ?_
  · exact ⟨_, rd_ok (by rw [(hs i).lam]; omega), trivial⟩
  refine lock_loc (Q := fun _ l => l.length = m) (fun i => ?_) fun l hl => ?_
  · exact ⟨_, wr_ok (by rw [(hs i).l]; exact hj), by rw [List.length_set]; exact (hs i).l⟩
  refine lock_loc (fun i => coeffs_ok N hk (hS i) hj) fun b hb => ?_
  dsimp only
  refine lock_loc (fun i => combine_ok N (hb i) (hprev i).F (List.length_replicate ..)) fun px hpx => ?_
  refine lock_loc (fun i => combine_ok N (hb i) (hprev i).G (List.length_replicate ..)) fun PX hPX => ?_
  refine lock_loc (fun i => combine_ok N (hb i) ((hprev i).H rfl) (List.length_replicate ..)) fun BPX hBPX => ?_
  refine lock_nrm2 fun np => lock_nrm2 fun nx => ?_
  refine lock_loc (fun i => axpyz_ok N (N.neg (li i)) (n := ns i) (by rw [scal_length]; exact (hpx i).2)
    (by rw [scal_length]; exact (hPX i).2)) fun w hw => ?_
  refine lock_loc (Q := fun i v => v.length = ns i)
    (fun i => by obtain ⟨y, h1, h2⟩ := hp i (w i) (hw i); exact ⟨y, h2, h1⟩) fun w' hw' => ?_
  refine lock_nrm2 fun r => ?_
  split
  · refine lock_pure (Or.inl ⟨r, l, _, fun i => ⟨rfl, hl i, ?_⟩⟩)
    exact (hs i).F.x.set j (by rw [scal_length]; exact (hpx i).2)
  · refine lock_loc (fun i => mvInto_ok (hr i) (hA i) (by rw [scal_length]; exact hw' i)) fun W hW => ?_
    refine lock_loc (fun i => mvInto_ok (hrB i) (hB i) (by rw [scal_length]; exact hw' i)) fun BW hBW => ?_
    refine lock_pure (Or.inr ⟨r, _, fun i => ⟨rfl, ?_⟩⟩)
    exact { F := (hs i).F.put j (by rw [scal_length]; exact hw' i) (by rw [scal_length]; exact (hpx i).2)
              (by rw [scal_length]; exact (hpx i).1)
            G := (hs i).G.put j (hW i) (by rw [scal_length]; exact (hPX i).2) (by rw [scal_length]; exact (hPX i).1)
            H := fun _ => ((hs i).H rfl).put j (hBW i) (by rw [scal_length]; exact (hBPX i).2)
              (by rw [scal_length]; exact (hBPX i).1)
            l := hl i
            lam := (hs i).lam }

/-- after the loop over the columns -/
def ColsRes (g : Bool) (m : Nat) (ns : Fin P → Nat) (iter len : Nat) (r : Fin P → Sum (Lobpcg.Out α) (St α × List α)) :
    Prop :=
  (∃ (resid : α) (l : Fin P → List α) (x : Fin P → List (List α)), ∀ i,
    r i = .inl ⟨RESIDUAL_NAN, l i, x i, iter + 1, resid⟩ ∧ (l i).length = m ∧ Rows m (ns i) (x i)) ∨
  (∃ (rs : List α) (s' : Fin P → St α), rs.length = len ∧ ∀ i, r i = .inr (s' i, rs) ∧ StOk g m (ns i) (s' i))

theorem lock_columns {g : Bool} {iter : Nat} {body : Fin P → Nat → St α → Proc α (Sum (Lobpcg.Out α) (St α × α))}
    (h : ∀ s : Fin P → St α, (∀ i, StOk g m (ns i) (s i)) → ∀ j, j < m →
      Lock comb (fun i => body i j (s i)) (ColRes g m ns iter)) :
    ∀ (is : List Nat), (∀ j ∈ is, j < m) → ∀ (rs : List α) (s : Fin P → St α), (∀ i, StOk g m (ns i) (s i)) →
    Lock comb (fun i => columns (body i) is rs (s i)) (ColsRes g m ns iter (rs.length + is.length))
  | [], _, rs, s, hs => lock_pure (Or.inr ⟨rs, s, rfl, fun i => ⟨rfl, hs i⟩⟩)
  | j :: is, hj, rs, s, hs => by
    unfold columns
    refine (h s hs j (hj j (List.mem_cons_self ..))).bind fun r hr => ?_
    rcases hr with ⟨resid, l, x, hr⟩ | ⟨resid, s', hr⟩
    · obtain rfl : r = fun i => .inl ⟨RESIDUAL_NAN, l i, x i, iter + 1, resid⟩ := funext fun i => (hr i).1
      exact lock_pure (Or.inl ⟨resid, l, x, fun i => ⟨rfl, (hr i).2⟩⟩)
    · obtain rfl : r = fun i => .inr (s' i, resid) := funext fun i => (hr i).1
      have := lock_columns h is (fun j h => hj j (List.mem_cons_of_mem _ h)) (rs ++ [resid]) s' (fun i => (hr i).2)
      rw [List.length_append, List.length_singleton, Nat.add_assoc, Nat.add_comm 1] at this
      exact this

/-- after a pass: all return the same, or all go on -/
def PassRes (g : Bool) (m : Nat) (ns : Fin P → Nat) (iter : Nat) (r : Fin P → Pass α) : Prop :=
  (∃ (status : Int) (resid : α) (l : Fin P → List α) (x : Fin P → List (List α)),
    (status = SUCCESS ∨ status = RESIDUAL_NAN) ∧ ∀ i,
    r i = .done ⟨status, l i, x i, iter + 1, resid⟩ ∧ (l i).length = m ∧ Rows m (ns i) (x i)) ∨
  (∃ (resid : α) (s' : Fin P → St α), ∀ i, r i = .next (s' i) resid ∧ StOk g m (ns i) (s' i))

/-- what LAPACK answers to the projected problem -/
def reply (N : Num α) (L : Lib α) (k : Nat) (sb : St α → List (List α)) (s : St α) :=
  L.sygvd 1 true false k (gram N (s.G.rows.take k) (s.F.rows.take k)) k (gram N ((sb s).take k) (s.F.rows.take k)) k

/-- the state after that -/
def after (N : Num α) (L : Lib α) (k : Nat) (sb : St α → List (List α)) (s : St α) : St α :=
  { s with lam := overwrite s.lam (reply N L k sb s).2.2.1 }

/-- what a process does after the loop over the columns -/
def rest (N : Num α) (cfg : Cfg α) (iter : Nat) (c : Sum (Lobpcg.Out α) (St α × List α)) : Proc α (Pass α) :=
  match c with
  | .inl o => pure (.done o)
  | .inr (s', rs) => do
    let resid ← loc (maxV N rs)
    if N.lt resid cfg.tol = true ∧ cfg.miniter < iter + 1 then
      pure (.done { status := SUCCESS, l := s'.l, x := s'.F.x, finalIter := iter + 1, finalResid := resid })
    else pure (.next s' resid)

theorem lock_max {γ : Type} {a : α} {rs : List α} {k : Fin P → α → Proc α γ} {R : (Fin P → γ) → Prop}
    (h : ∀ v, Lock comb (fun i => k i v) R) : Lock comb (fun i => loc (maxV N (a :: rs)) >>= k i) R :=
  h (rs.foldl (fun s b => if N.lt s b then b else s) a)

theorem lock_passWith {g : Bool} (hm : 0 < m) {Ls : Fin P → Lib α} (hL : ∀ i, Answers (Ls i)) {cfg : Cfg α} {iter k : Nat}
    (hk : k = 2 * m ∨ k = 3 * m) {lb ub : Int} (hlb : 0 ≤ lb) {sb : St α → List (List α)}
    (hsb : ∀ n (s : St α), StOk g m n s → (sb s).length = 3 * m)
    {body : Fin P → Nat → List α → St α → Nat → St α → Proc α (Sum (Lobpcg.Out α) (St α × α))}
    (hb : LockBody comb g m ns iter body) {s : Fin P → St α} (hs : ∀ i, StOk g m (ns i) (s i)) :
    Lock comb (fun i => passWith N (Ls i) cfg m iter k lb ub sb (body i) (s i)) (PassRes g m ns iter) := by
  have hk3 : k ≤ 3 * m := by omega
  have hans := fun i => hL i k (gram N ((s i).G.rows.take k) ((s i).F.rows.take k))
    (gram N ((sb (s i)).take k) ((s i).F.rows.take k))
    (by rw [gram_length, List.length_take, List.length_take, rows_length (hs i).F, rows_length (hs i).G]
        rw [Nat.min_eq_left hk3])
    (by rw [gram_length, List.length_take, List.length_take, rows_length (hs i).F, hsb _ _ (hs i)]
        rw [Nat.min_eq_left hk3])
  have hs' : ∀ i, StOk g m (ns i) (after N (Ls i) k sb (s i)) :=
    fun i => ⟨(hs i).F, (hs i).G, (hs i).H, (hs i).l, by
      show (overwrite (s i).lam (reply N (Ls i) k sb (s i)).2.2.1).length = 3 * m
      unfold overwrite reply
      rw [List.length_append, List.length_drop, (hans i).2.1, (hs i).lam]; omega⟩
  have hpass : (fun i => passWith N (Ls i) cfg m iter k lb ub sb (body i) (s i)) = fun i =>
      (columns (body i k (reply N (Ls i) k sb (s i)).1 (after N (Ls i) k sb (s i))) (List.range m) []
        (after N (Ls i) k sb (s i))) >>= rest N cfg iter := by
    funext i
    unfold passWith
    dsimp only
    rw [(hans i).2.2, if_neg (by omega), if_neg (by omega)]
    rfl
  rw [hpass]
  refine (lock_columns (fun s'' h'' j hj => hb k hk _ (fun i => (hans i).1) _ s'' hs' h'' j hj) (List.range m)
    (fun j h => List.mem_range.mp h) [] _ hs').bind fun r hr => ?_
  rcases hr with ⟨resid, l, x, hr⟩ | ⟨rs, s', hlen, hr⟩
  · obtain rfl : r = fun i => .inl ⟨RESIDUAL_NAN, l i, x i, iter + 1, resid⟩ := funext fun i => (hr i).1
    exact lock_pure (Or.inl ⟨RESIDUAL_NAN, resid, l, x, Or.inr rfl, fun i => ⟨rfl, (hr i).2⟩⟩)
  · obtain rfl : r = fun i => .inr (s' i, rs) := funext fun i => (hr i).1
    dsimp only
    rw [List.length_nil, Nat.zero_add, List.length_range] at hlen
    cases rs with
    | nil => exact absurd hlen (by simp only [List.length_nil]; omega)
    | cons a rs =>
      unfold rest
      refine lock_max fun v => ?_
      split
      · exact lock_pure (Or.inl ⟨SUCCESS, v, fun i => (s' i).l, fun i => (s' i).F.x, Or.inl rfl,
          fun i => ⟨rfl, (hr i).2.l, (hr i).2.F.x⟩⟩)
      · exact lock_pure (Or.inr ⟨v, s', fun i => ⟨rfl, (hr i).2⟩⟩)

theorem lock_loop {g : Bool} {cfg : Cfg α} {body : Fin P → Nat → Bool → St α → Proc α (Pass α)}
    (h : ∀ iter sing (s : Fin P → St α), (∀ i, StOk g m (ns i) (s i)) →
      Lock comb (fun i => body i iter sing (s i)) (PassRes g m ns iter)) :
    ∀ fuel iter sing resid (s : Fin P → St α), (∀ i, StOk g m (ns i) (s i)) → iter ≤ cfg.maxiter →
    cfg.maxiter < iter + fuel → Return comb cfg m ns (fun i => loop cfg (body i) fuel iter sing resid (s i))
  | 0, _, _, _, _, _, _, _ => by omega
  | fuel + 1, iter, sing, resid, s, hs, hi, hf => by
    unfold loop
    by_cases hlt : iter < cfg.maxiter
    · simp only [if_pos hlt]
      obtain ⟨r, hc, hr⟩ := h iter sing s hs
      rcases hr with ⟨st, resid, l, x, hst, hr⟩ | ⟨resid, s', hr⟩
      · obtain rfl : r = fun i => .done ⟨st, l i, x i, iter + 1, resid⟩ := funext fun i => (hr i).1
        refine ⟨l, x, st, iter + 1, resid, fun i => (hr i).2.1, fun i => (hr i).2.2, ?_, hlt, ?_⟩
        · rcases hst with h | h
          · exact Or.inl h
          · exact Or.inr (Or.inr h)
        · exact completes_bind hc rfl (.done _)
      · obtain rfl : r = fun i => .next (s' i) resid := funext fun i => (hr i).1
        obtain ⟨l, x, st, it, rd', h1, h2, h3, h4, h5⟩ := lock_loop h fuel (iter + 1) false resid s' (fun i => (hr i).2) hlt
          (by omega)
        exact ⟨l, x, st, it, rd', h1, h2, h3, h4, completes_bind hc rfl h5⟩
    · simp only [if_neg hlt]
      exact ⟨fun i => (s i).l, fun i => (s i).F.x, MAXITER, cfg.maxiter, resid, fun i => (hs i).l, fun i => (hs i).F.x,
        Or.inr (Or.inl rfl), Nat.le_refl _, .done _⟩

theorem lock_mapProc {β γ : Type} {f : Fin P → β → Proc α γ} {Q : Fin P → γ → Prop} {I : Fin P → β → Prop}
    (h : ∀ b : Fin P → β, (∀ i, I i (b i)) → Lock comb (fun i => f i (b i)) (fun r => ∀ i, Q i (r i))) :
    ∀ (len : Nat) (l : Fin P → List β), (∀ i, (l i).length = len ∧ ∀ b ∈ l i, I i b) →
    Lock comb (fun i => mapProc (f i) (l i)) (fun r => ∀ i, (r i).length = len ∧ ∀ b ∈ r i, Q i b)
  | 0, l, hl => by
    obtain rfl : l = fun _ => [] := funext fun i => List.eq_nil_of_length_eq_zero (hl i).1
    exact lock_pure (b := fun _ => []) fun i => ⟨rfl, by simp⟩
  | len + 1, l, hl => by
    have hne : ∀ i, ∃ a t, l i = a :: t := fun i => by
      cases h' : l i with
      | nil => have := (hl i).1; rw [h'] at this; simp at this
      | cons a t => exact ⟨a, t, rfl⟩
    choose a t hat using hne
    obtain rfl : l = fun i => a i :: t i := funext hat
    unfold mapProc
    refine (h a fun i => (hl i).2 _ (List.mem_cons_self ..)).bind fun b hb => ?_
    refine (lock_mapProc h len t fun i => ⟨by have := (hl i).1; simpa using this,
      fun x hx => (hl i).2 x (List.mem_cons_of_mem _ hx)⟩).bind fun r hr => ?_
    refine lock_pure (b := fun i => b i :: r i) fun i => ⟨by rw [List.length_cons, (hr i).1], fun x hx => ?_⟩
    rcases List.mem_cons.mp hx with h' | h'
    · rw [h']; exact hb i
    · exact (hr i).2 x h'

/-- the vectors a process starts from: `m` random vectors of the right length, or the rows of `xinout` -/
def StartOk (m n : Nat) (rs : Option (List (List α))) : Prop :=
  ∀ r, rs = some r → m ≤ r.length ∧ ∀ v ∈ r, v.length = n

theorem lock_initial {rand : Bool} {rs : Fin P → Option (List (List α))} (hrs : ∀ i, (rs i).isSome = rand)
    (hst : ∀ i, StartOk m (ns i) (rs i)) {xin : Fin P → List (List α)} (hx : ∀ i, Rows m (ns i) (xin i)) :
    Lock comb (fun i => initial N m (rs i) (xin i)) (fun r => ∀ i, Rows m (ns i) (r i)) := by
  cases rand with
  | false =>
    obtain rfl : rs = fun _ => none := funext fun i => Option.isSome_eq_false_iff.mp (hrs i) |> Option.isNone_iff_eq_none.mp
    refine lock_pure (b := fun i => (xin i).take m) fun i => ?_
    show Rows m (ns i) ((xin i).take m)
    rw [List.take_of_length_le (by rw [(hx i).1])]
    exact hx i
  | true =>
    choose r hr using fun i => Option.isSome_iff_exists.mp (hrs i)
    obtain rfl : rs = fun i => some (r i) := funext hr
    exact lock_mapProc (f := fun _ => normalise N) (Q := fun i v => v.length = ns i) (I := fun i v => v.length = ns i)
      (fun b hb => lock_nrm2 fun c => lock_pure fun i => by rw [scal_length]; exact hb i) m _
      fun i => ⟨by rw [List.length_take]; have := (hst i _ rfl).1; omega, fun v hv => (hst i _ rfl).2 v (List.mem_of_mem_take hv)⟩

theorem rows_map {β : Type} {len n : Nat} {t : List β} (ht : t.length = len) {f : β → List α} (h : ∀ b ∈ t, (f b).length = n) :
    Rows len n (t.map f) :=
  ⟨by rw [List.length_map, ht], fun v hv => by obtain ⟨b, hb, rfl⟩ := List.mem_map.mp hv; exact h b hb⟩

theorem rows_zeros (z : α) (m n : Nat) : Rows m n (List.replicate m (List.replicate n z)) :=
  ⟨List.length_replicate .., fun v hv => by rw [(List.mem_replicate.mp hv).2, List.length_replicate]⟩

/-- **C118**, the part that holds: if every process calls the solver with the same settings for `m ≥ 1` eigenvalues, on its
own square matrix, and LAPACK can solve the projected problem of every process, all of them return together with the same
return code, iteration count and residual. (Missing: they need not agree about the eigenvalues, and LAPACK cannot solve the
projected problem of a process with few rows.) -/
theorem C118_lobpcg_return_partial (hm : 0 < m) {Ls : Fin P → Lib α} (hL : ∀ i, Answers (Ls i)) (cfg : Cfg α)
    {As : Fin P → Mat α} (hr : ∀ i, (As i).row = ns i) (hc : ∀ i, (As i).col = ns i) (hA : ∀ i, Works (ns i) (As i).mv)
    {pcs : Fin P → List α → Res (List α)} (hp : ∀ i, Works (ns i) (pcs i)) {l : Fin P → List α} (hl : ∀ i, (l i).length = m)
    {xin : Fin P → List (List α)} (hx : ∀ i, Rows m (ns i) (xin i)) {rand : Bool} {rs : Fin P → Option (List (List α))}
    (hrand : ∀ i, (rs i).isSome = rand) (hst : ∀ i, StartOk m (ns i) (rs i)) {fuel : Nat} (hf : cfg.maxiter < fuel) :
    Return comb cfg m ns (fun i => standard N (Ls i) cfg (As i) (.ok (pcs i)) (l i) (xin i) (ns i) (rs i) fuel) := by
  have hstd : (fun i => standard N (Ls i) cfg (As i) (.ok (pcs i)) (l i) (xin i) (ns i) (rs i) fuel) = fun i =>
      initial N m (rs i) (xin i) >>= fun x => mapProc (initVec N (As i) (ns i)) x >>= fun t =>
      loop cfg (fun iter singular s => pass N (Ls i) cfg m iter singular (fun s => s.F.rows)
          (fun k S prev => column N (As i) (pcs i) m (ns i) k S iter prev) s) fuel 0 false N.zero
        { F := ⟨t.map (fun v => v.2.1), x, List.replicate m (List.replicate (ns i) N.zero)⟩
          G := ⟨t.map (fun v => v.2.2), t.map (fun v => v.1), List.replicate m (List.replicate (ns i) N.zero)⟩
          H := ⟨[], [], []⟩
          l := l i
          lam := List.replicate (3 * m) N.zero } := by
    funext i
    unfold standard
    rw [if_neg (by rw [hc i]; simp), if_neg (by rw [hl i, (hx i).1]; simp), hl i, hc i]
    rfl
  rw [hstd]
  obtain ⟨x, hcx, hx'⟩ := lock_initial (comb := comb) (N := N) hrand hst hx
  obtain ⟨t, hct, ht⟩ := lock_mapProc (comb := comb) (f := fun i => initVec N (As i) (ns i))
    (Q := fun i t => t.1.length = ns i ∧ t.2.1.length = ns i ∧ t.2.2.length = ns i) (I := fun i v => v.length = ns i)
    (fun b hb => by
      unfold initVec
      refine lock_loc (fun i => mvInto_ok (hr i) (hA i) (hb i)) fun X hX => ?_
      refine lock_dot (fun i => by rw [hb i, hX i]) fun mu => ?_
      refine lock_loc (fun i => axpyz_ok N (N.neg mu) (hb i) (hX i)) fun w hw => ?_
      refine lock_nrm2 fun c => ?_
      refine lock_loc (fun i => mvInto_ok (hr i) (hA i) (by rw [scal_length]; exact hw i)) fun W hW => ?_
      exact lock_pure fun i => ⟨hX i, by rw [scal_length]; exact hw i, hW i⟩) m x hx'
  obtain ⟨l', x', st, it, rd', h1, h2, h3, h4, h5⟩ := lock_loop (comb := comb) (g := false) (m := m) (ns := ns) (cfg := cfg)
    (body := fun i iter singular s => pass N (Ls i) cfg m iter singular (fun s => s.F.rows)
          (fun k S prev => column N (As i) (pcs i) m (ns i) k S iter prev) s)
    (fun iter sing s hs => by
      unfold pass
      split
      · exact lock_passWith hm hL (Or.inl rfl) (by omega) (fun n s hs => rows_length hs.F) (lock_column hr hA hp iter) hs
      · exact lock_passWith hm hL (Or.inr rfl) (by omega) (fun n s hs => rows_length hs.F) (lock_column hr hA hp iter) hs)
    fuel 0 false N.zero
    (fun i => { F := ⟨(t i).map (fun v => v.2.1), x i, List.replicate m (List.replicate (ns i) N.zero)⟩
                G := ⟨(t i).map (fun v => v.2.2), (t i).map (fun v => v.1), List.replicate m (List.replicate (ns i) N.zero)⟩
                H := ⟨[], [], []⟩
                l := l i
                lam := List.replicate (3 * m) N.zero })
    (fun i => { F := ⟨rows_map (ht i).1 fun b hb => ((ht i).2 b hb).2.1, hx' i, rows_zeros ..⟩
                G := ⟨rows_map (ht i).1 fun b hb => ((ht i).2 b hb).2.2, rows_map (ht i).1 fun b hb => ((ht i).2 b hb).1,
                  rows_zeros ..⟩
                H := fun h => nomatch h
                l := hl i
                lam := List.length_replicate .. })
    (Nat.zero_le _) (by omega)
  exact ⟨l', x', st, it, rd', h1, h2, h3, h4, completes_bind hcx rfl (completes_bind hct rfl h5)⟩

/-- **C118**, the same for the generalised problem -/
theorem C118_lobpcg_generalized_return_partial (hm : 0 < m) {Ls : Fin P → Lib α} (hL : ∀ i, Answers (Ls i)) (cfg : Cfg α)
    {As Bs : Fin P → Mat α} (hr : ∀ i, (As i).row = ns i) (hc : ∀ i, (As i).col = ns i) (hA : ∀ i, Works (ns i) (As i).mv)
    (hrB : ∀ i, (Bs i).row = ns i) (hcB : ∀ i, (Bs i).col = ns i) (hB : ∀ i, Works (ns i) (Bs i).mv)
    {pcs : Fin P → List α → Res (List α)} (hp : ∀ i, Works (ns i) (pcs i)) {l : Fin P → List α} (hl : ∀ i, (l i).length = m)
    {xin : Fin P → List (List α)} (hx : ∀ i, Rows m (ns i) (xin i)) {rand : Bool} {rs : Fin P → Option (List (List α))}
    (hrand : ∀ i, (rs i).isSome = rand) (hst : ∀ i, StartOk m (ns i) (rs i)) {fuel : Nat} (hf : cfg.maxiter < fuel) :
    Return comb cfg m ns
      (fun i => generalized N (Ls i) cfg (As i) (Bs i) (.ok (pcs i)) (l i) (xin i) (ns i) 1 (rs i) fuel) := by
  have hstd : (fun i => generalized N (Ls i) cfg (As i) (Bs i) (.ok (pcs i)) (l i) (xin i) (ns i) 1 (rs i) fuel) = fun i =>
      initial N m (rs i) (xin i) >>= fun x => mapProc (ginitVec N (As i) (Bs i) (ns i)) x >>= fun t =>
      loop cfg (fun iter singular s => pass N (Ls i) cfg m iter singular (fun s => s.H.rows)
          (fun k S prev => gcolumn N (As i) (Bs i) (pcs i) m (ns i) k S iter prev) s) fuel 0 false N.zero
        { F := ⟨t.map (fun v => v.2.2.1), x, List.replicate m (List.replicate (ns i) N.zero)⟩
          G := ⟨t.map (fun v => v.2.2.2.1), t.map (fun v => v.1), List.replicate m (List.replicate (ns i) N.zero)⟩
          H := ⟨t.map (fun v => v.2.2.2.2), t.map (fun v => v.2.1), List.replicate m (List.replicate (ns i) N.zero)⟩
          l := l i
          lam := List.replicate (3 * m) N.zero } := by
    funext i
    unfold generalized
    dsimp only
    rw [if_neg (by rw [hc i]; simp), if_neg (by rw [hc i, hr i, hcB i, hrB i]; simp), if_neg (by rw [hl i, (hx i).1]; simp),
      hl i, hc i]
    rfl
  rw [hstd]
  obtain ⟨x, hcx, hx'⟩ := lock_initial (comb := comb) (N := N) hrand hst hx
  obtain ⟨t, hct, ht⟩ := lock_mapProc (comb := comb) (f := fun i => ginitVec N (As i) (Bs i) (ns i))
    (Q := fun i t => t.1.length = ns i ∧ t.2.1.length = ns i ∧ t.2.2.1.length = ns i ∧ t.2.2.2.1.length = ns i ∧
      t.2.2.2.2.length = ns i) (I := fun i v => v.length = ns i)
    (fun b hb => by
      unfold ginitVec
      refine lock_loc (fun i => mvInto_ok (hr i) (hA i) (hb i)) fun X hX => ?_
      refine lock_loc (fun i => mvInto_ok (hrB i) (hB i) (hb i)) fun BX hBX => ?_
      refine lock_dot (fun i => by rw [hb i, hX i]) fun muA => ?_
      refine lock_dot (fun i => by rw [hb i, hBX i]) fun muB => ?_
      refine lock_loc (fun i => axpyz_ok N (N.neg (N.div muA muB)) (hb i) (hBX i)) fun w hw => ?_
      refine lock_nrm2 fun c => ?_
      refine lock_loc (fun i => mvInto_ok (hr i) (hA i) (by rw [scal_length]; exact hw i)) fun W hW => ?_
      refine lock_loc (fun i => mvInto_ok (hrB i) (hB i) (by rw [scal_length]; exact hw i)) fun BW hBW => ?_
      exact lock_pure fun i => ⟨hX i, hBX i, by rw [scal_length]; exact hw i, hW i, hBW i⟩) m x hx'
  obtain ⟨l', x', st, it, rd', h1, h2, h3, h4, h5⟩ := lock_loop (comb := comb) (g := true) (m := m) (ns := ns) (cfg := cfg)
    (body := fun i iter singular s => pass N (Ls i) cfg m iter singular (fun s => s.H.rows)
          (fun k S prev => gcolumn N (As i) (Bs i) (pcs i) m (ns i) k S iter prev) s)
    (fun iter sing s hs => by
      unfold pass
      split
      · exact lock_passWith hm hL (Or.inl rfl) (by omega) (fun n s hs => rows_length (hs.H rfl))
          (lock_gcolumn hr hA hrB hB hp iter) hs
      · exact lock_passWith hm hL (Or.inr rfl) (by omega) (fun n s hs => rows_length (hs.H rfl))
          (lock_gcolumn hr hA hrB hB hp iter) hs)
    fuel 0 false N.zero
    (fun i => { F := ⟨(t i).map (fun v => v.2.2.1), x i, List.replicate m (List.replicate (ns i) N.zero)⟩
                G := ⟨(t i).map (fun v => v.2.2.2.1), (t i).map (fun v => v.1),
                  List.replicate m (List.replicate (ns i) N.zero)⟩
                H := ⟨(t i).map (fun v => v.2.2.2.2), (t i).map (fun v => v.2.1),
                  List.replicate m (List.replicate (ns i) N.zero)⟩
                l := l i
                lam := List.replicate (3 * m) N.zero })
    (fun i => { F := ⟨rows_map (ht i).1 fun b hb => ((ht i).2 b hb).2.2.1, hx' i, rows_zeros ..⟩
                G := ⟨rows_map (ht i).1 fun b hb => ((ht i).2 b hb).2.2.2.1, rows_map (ht i).1 fun b hb => ((ht i).2 b hb).1,
                  rows_zeros ..⟩
                H := fun _ => ⟨rows_map (ht i).1 fun b hb => ((ht i).2 b hb).2.2.2.2,
                  rows_map (ht i).1 fun b hb => ((ht i).2 b hb).2.1, rows_zeros ..⟩
                l := hl i
                lam := List.length_replicate .. })
    (Nat.zero_le _) (by omega)
  exact ⟨l', x', st, it, rd', h1, h2, h3, h4, completes_bind hcx rfl (completes_bind hct rfl h5)⟩

theorem of_asRes {β : Type} {r : Option (Res β)} {b : β} (h : asRes r = .ok (some b)) : r = some (.ok b) := by
  match r, h with
  | some (.ok c), h => cases h; rfl

/-- **C72**, what is left when LAPACK can solve the projected problems: the solver (on one process, or without MPI) returns
normally, within `maxiter` iterations, with one of its documented codes, `m` eigenvalues and `m` vectors of the length of the
matrix; it does not read or write out of bounds, does not abort and does not throw. Any arithmetic. -/
theorem C72_lobpcg_total_partial {n : Nat} (hm : 0 < m) {L : Lib α} (hL : Answers L) (cfg : Cfg α) {A : Mat α}
    (hr : A.row = n) (hc : A.col = n) (hA : Works n A.mv) {pc : List α → Res (List α)} (hp : Works n pc) {l : List α}
    (hl : l.length = m) {xin : List (List α)} (hx : Rows m n xin) {rs : Option (List (List α))} (hst : StartOk m n rs)
    {fuel : Nat} (hf : cfg.maxiter < fuel) :
    ∃ out, Lobpcg.standard N L cfg A (.ok pc) l xin n rs fuel = some (.ok out) ∧ out.l.length = m ∧ Rows m n out.x ∧
      (out.status = SUCCESS ∨ out.status = MAXITER ∨ out.status = RESIDUAL_NAN) ∧ out.finalIter ≤ cfg.maxiter := by
  obtain ⟨l', x', st, it, r, h1, h2, h3, h4, h5⟩ := C118_lobpcg_return_partial (N := N) (comb := fun v : Fin 1 → α => v 0)
    (ns := fun _ => n) hm (fun _ => hL) cfg (As := fun _ => A) (fun _ => hr) (fun _ => hc) (fun _ => hA) (pcs := fun _ => pc)
    (fun _ => hp) (l := fun _ => l) (fun _ => hl) (xin := fun _ => xin) (fun _ => hx) (rand := rs.isSome) (rs := fun _ => rs)
    (fun _ => rfl) (fun _ => hst) hf
  have := congrFun ((C118_one_process L cfg A (.ok pc) l xin n rs fuel).unique h5) 0
  exact ⟨_, of_asRes this, h1 0, h2 0, h3, h4⟩

/-- **C72**, the same for the generalised problem -/
theorem C72_lobpcg_generalized_total_partial {n : Nat} (hm : 0 < m) {L : Lib α} (hL : Answers L) (cfg : Cfg α) {A B : Mat α}
    (hr : A.row = n) (hc : A.col = n) (hA : Works n A.mv) (hrB : B.row = n) (hcB : B.col = n) (hB : Works n B.mv)
    {pc : List α → Res (List α)} (hp : Works n pc) {l : List α}
    (hl : l.length = m) {xin : List (List α)} (hx : Rows m n xin) {rs : Option (List (List α))} (hst : StartOk m n rs)
    {fuel : Nat} (hf : cfg.maxiter < fuel) :
    ∃ out, Lobpcg.generalized N L cfg A B (.ok pc) l xin n 1 rs fuel = some (.ok out) ∧ out.l.length = m ∧ Rows m n out.x ∧
      (out.status = SUCCESS ∨ out.status = MAXITER ∨ out.status = RESIDUAL_NAN) ∧ out.finalIter ≤ cfg.maxiter := by
  obtain ⟨l', x', st, it, r, h1, h2, h3, h4, h5⟩ := C118_lobpcg_generalized_return_partial (N := N)
    (comb := fun v : Fin 1 → α => v 0) (ns := fun _ => n) hm (fun _ => hL) cfg (As := fun _ => A) (Bs := fun _ => B)
    (fun _ => hr) (fun _ => hc) (fun _ => hA) (fun _ => hrB) (fun _ => hcB) (fun _ => hB) (pcs := fun _ => pc)
    (fun _ => hp) (l := fun _ => l) (fun _ => hl) (xin := fun _ => xin) (fun _ => hx) (rand := rs.isSome) (rs := fun _ => rs)
    (fun _ => rfl) (fun _ => hst) hf
  have := congrFun ((C118_one_process_generalized L cfg A B (.ok pc) l xin n 1 rs fuel).unique h5) 0
  exact ⟨_, of_asRes this, h1 0, h2 0, h3, h4⟩

end Verif.MpiLobpcg
