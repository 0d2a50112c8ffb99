import Verif.Spec.LineOpSpec
import Verif.Props.Scale
import Verif.Props.TensorScale
import Verif.Props.TensorCrsScale
import Verif.Lemmas.RowLoop
import Verif.Lemmas.Product

/-! The kernels of the row and column operations, in the terms of Spec/LineOpSpec.lean. -/

namespace Verif.LineOp

open Spec Dispatch

variable {α : Type} [Semiring α]

theorem op_eq (f : Fn) (u v : α) : f.op u v = combine f u v := by
  cases f <;> rfl

/-- the result of a call, as the theorems state it -/
def Gives (r : Res (Val α)) (C : Val α) (s : List Nat) (g : List Nat → α) : Prop :=
  ∃ C', r = .ok C' ∧ Kept C C' ∧ Holds C' s g

theorem sumAt_select (P : Nat → Nat → Prop) [∀ i j, Decidable (P i j)] (g : Nat → Nat → α) (L L' : List (Entry α))
    (h : L.map (fun e => (e.1, e.2.1)) = L'.map (fun e => (e.1, e.2.1))) (i j : Nat) :
    sumAt (List.zipWith (fun a c => if P c.1 c.2.1 then (c.1, c.2.1, a.2.2 * g c.1 c.2.1) else c) L L') i j =
      if P i j then sumAt L i j * g i j else sumAt L' i j := by
  induction L generalizing L' with
  | nil =>
    cases L' with
    | nil => simp [sumAt]
    | cons b L' => simp at h
  | cons a L ih =>
    cases L' with
    | nil => simp at h
    | cons b L' =>
      simp only [List.map_cons, List.cons.injEq, Prod.mk.injEq] at h
      obtain ⟨⟨h1, h2⟩, h3⟩ := h
      rw [List.zipWith_cons_cons, sumAt_cons, sumAt_cons, sumAt_cons, ih L' h3]
      by_cases hp : b.1 = i ∧ b.2.1 = j
      · obtain ⟨rfl, rfl⟩ := hp
        by_cases hP : P b.1 b.2.1
        · simp [hP, h1, h2, add_mul]
        · simp [hP]
      · have hp' : ¬ (a.1 = i ∧ a.2.1 = j) := by rw [h1, h2]; exact hp
        rw [if_neg hp, if_neg hp', zero_add, zero_add]
        by_cases hP : P b.1 b.2.1
        · simp [hP, hp]
        · simp [hP, hp]

theorem sumAt_map (g : Nat → Nat → α) (L : List (Entry α)) (i j : Nat) :
    sumAt (L.map (fun e => (e.1, e.2.1, e.2.2 * g e.1 e.2.1))) i j = sumAt L i j * g i j := by
  induction L with
  | nil => simp [sumAt]
  | cons a L ih =>
    rw [List.map_cons, sumAt_cons, sumAt_cons, ih, add_mul]
    by_cases hp : a.1 = i ∧ a.2.1 = j
    · obtain ⟨rfl, rfl⟩ := hp
      simp
    · simp [hp]

omit [Semiring α] in
theorem rowEntries_pos {A C : Crs α} (hA : A.Safe) (hC : C.Safe) (h : SameStructure A C) {i : Nat}
    (hi : i < A.rowN) :
    (A.rowEntries i).map (fun e => (e.1, e.2.1)) = (C.rowEntries i).map (fun e => (e.1, e.2.1)) := by
  have key : ∀ {A : Crs α} (_ : A.Safe) {i : Nat} (_ : i < A.rowN),
      (A.rowEntries i).map (fun e => (e.1, e.2.1)) =
        (((A.colInd.take A.nnz).take (A.ptr (i + 1))).drop (A.ptr i)).map (fun c => (i, c)) := by
    intro A hA i hi
    have h1 := hA.ptr_le (i + 1) (by omega)
    have a1 := hA.lenV; have a2 := hA.nnz_le; have a3 := hA.lenC
    unfold Crs.rowEntries
    rw [List.map_map]
    have : (fun e : Entry α => (e.1, e.2.1)) ∘ (fun p : Nat × α => ((i, p.1, p.2) : Entry α)) =
        (fun c => (i, c)) ∘ Prod.fst := rfl
    rw [this, ← List.map_map]
    congr 1
    rw [List.map_drop, take_zip, List.map_fst_zip (by simp; omega), List.take_take,
      Nat.min_eq_left h1]
  have hp : A.ptr = C.ptr := by funext k; simp [Crs.ptr, h.ptr]
  rw [key hA hi, key hC (by rw [← h.row]; exact hi), hp, h.ind, h.nnz]

variable {e c : List Nat → α} {y : List Nat → α} {n m : Nat} {p q : List Nat}

theorem pair_of_append {a b n : Nat} (h : p ++ [n] = [a, b]) : p = [a] ∧ n = b := by
  have := List.append_inj' (s₁ := p) (s₂ := [a]) (t₁ := [n]) (t₂ := [b]) h rfl
  exact ⟨this.1, by simpa using this.2⟩

theorem rowMajor_one (a i : Nat) : rowMajor [a] [i] = i := by simp [rowMajor, volume]

/-! dense matrices -/

theorem gives_mat {C C' : Dense α} {g : Nat → Nat → α} {r : Res (Val α)} {s : List Nat} {h : List Nat → α}
    (hr : r = .ok (.mat C')) (hs : s = [C.rowN, C.colN]) (h1 : C.Scaled C' g)
    (hg : ∀ i j, i < C.rowN → j < C.colN → g i j = h [i, j]) : Gives r (.mat C) s h := by
  obtain ⟨a1, a2, a3, a4, a5, a6⟩ := h1
  refine ⟨_, hr, ⟨a2, a3, a4, a6⟩, by rw [hs, a2, a3], a1, fun i j hi hj => ?_⟩
  rw [a2] at hi
  rw [a3] at hj
  rw [← hg i j hi hj]
  exact a5 i j (by omega) (by omega)

theorem mat_all (S : Sched) (hS : ∀ d n, Order (S d n) n) (same : Bool) (f : Fn) {A C : Dense α} {x : Win α}
    (hsame : same = true → C = A) {s : List Nat} {a b : Nat} (hs : s = [a, b])
    (hA : Holds (.mat A) s e) (hC : Holds (.mat C) s c) :
    (∀ n, Holds (.vec x) [n] y →
      (n = b → f = .times_row ∨ f = .adds_row → Gives (f.exec S same [.mat A, .vec x, .mat C]) (.mat C) s
        (fun pos => combine f (e pos) (y [pos.getLastD 0]))) ∧
      (n = a → f = .times_col ∨ f = .adds_col → Gives (f.exec S same [.mat A, .vec x, .mat C]) (.mat C) s
        (fun pos => combine f (e pos) (y [pos.headD 0]))) ∧
      (n = b → f = .times_row ∨ f = .adds_row → ∀ k, k < a →
        Gives (f.exec S same [.mat A, .num k, .vec x, .mat C]) (.mat C) s
        (fun pos => if pos.headD 0 = k then combine f (e pos) (y [pos.getLastD 0]) else c pos)) ∧
      (n = a → f = .times_col ∨ f = .adds_col → ∀ k, k < b →
        Gives (f.exec S same [.mat A, .num k, .vec x, .mat C]) (.mat C) s
        (fun pos => if pos.getLastD 0 = k then combine f (e pos) (y [pos.headD 0]) else c pos))) := by
  subst hs
  obtain ⟨a1, a2, a3⟩ := hA
  obtain ⟨c1, c2, c3⟩ := hC
  simp only [List.cons.injEq, and_true] at a1 c1
  obtain ⟨rfl, rfl⟩ := a1
  intro n hx
  obtain ⟨x1, x2, x3⟩ := hx
  simp only [List.cons.injEq, and_true] at x1
  have main := C45_dense a2 c2 same hsame c1.1 c1.2 (a := fun i j => e [i, j]) (c := fun i j => c [i, j])
    (fun i j hi hj => a3 i j hi hj) (fun i j hi hj => c3 i j hi hj) (f.op)
  obtain ⟨m1, m2, m3, m4⟩ := main.2 x (fun i => y [i]) x3
  have hsz : [A.rowN, A.colN] = [C.rowN, C.colN] := by rw [c1.1, c1.2]
  refine ⟨fun hn hf => ?_, fun hn hf => ?_, fun hn hf k hk => ?_, fun hn hf k hk => ?_⟩
  · obtain ⟨C', g1, g2⟩ := m1 (by omega) (S 0 A.rowN) (hS _ _)
    refine gives_mat (C' := C') ?_ hsz g2 (fun i j _ _ => by rw [op_eq]; rfl)
    rcases hf with rfl | rfl <;> (show ((_ : Res _).bind _ : Res _) = _; dsimp only; rw [g1]; rfl)
  · obtain ⟨C', g1, g2⟩ := m2 (by omega) (S 0 A.rowN) (hS _ _)
    refine gives_mat (C' := C') ?_ hsz g2 (fun i j _ _ => by rw [op_eq]; rfl)
    rcases hf with rfl | rfl <;> (show ((_ : Res _).bind _ : Res _) = _; dsimp only; rw [g1]; rfl)
  · obtain ⟨C', g1, g2⟩ := m3 (by omega) (S 0 A.colN) (hS _ _) k hk
    refine gives_mat (C' := C') ?_ hsz g2 (fun i j _ _ => by rw [op_eq]; rfl)
    rcases hf with rfl | rfl <;> (show ((_ : Res _).bind _ : Res _) = _; dsimp only; rw [g1]; rfl)
  · obtain ⟨C', g1, g2⟩ := m4 (by omega) (S 0 A.rowN) (hS _ _) k hk
    refine gives_mat (C' := C') ?_ hsz g2 (fun i j _ _ => by rw [op_eq]; rfl)
    rcases hf with rfl | rfl <;> (show ((_ : Res _).bind _ : Res _) = _; dsimp only; rw [g1]; rfl)

/-! CRS matrices -/

theorem crs_all (S : Sched) (hS : ∀ d n, Order (S d n) n) (same : Bool) {A C : HCrs α} {x : Win α}
    (hsame : same = true → C = A) (hAC : Alike (.crs A) (.crs C)) {s : List Nat} {a b : Nat} (hs : s = [a, b])
    (hA : Holds (.crs A) s e) (hC : Holds (.crs C) s c) :
    (∀ n, Holds (.vec x) [n] y →
      (n = b → Gives (Fn.times_row.exec S same [.crs A, .vec x, .crs C]) (.crs C) s
        (fun pos => e pos * y [pos.getLastD 0])) ∧
      (n = a → Gives (Fn.times_col.exec S same [.crs A, .vec x, .crs C]) (.crs C) s
        (fun pos => e pos * y [pos.headD 0])) ∧
      (n = b → ∀ k, k < a →
        Gives (Fn.times_row.exec S same [.crs A, .num k, .vec x, .crs C]) (.crs C) s
        (fun pos => if pos.headD 0 = k then e pos * y [pos.getLastD 0] else c pos)) ∧
      (n = a → ∀ k, k < b →
        Gives (Fn.times_col.exec S same [.crs A, .num k, .vec x, .crs C]) (.crs C) s
        (fun pos => if pos.getLastD 0 = k then e pos * y [pos.headD 0] else c pos))) := by
  subst hs
  obtain ⟨a1, a2, a3⟩ := hA
  obtain ⟨c1, c2, c3⟩ := hC
  obtain ⟨s1, s2, s3, s4⟩ := hAC
  simp only [List.cons.injEq, and_true] at a1 c1
  obtain ⟨rfl, rfl⟩ := a1
  have hst : SameStructure A.mat C.mat := ⟨c1.1, c1.2, s2.symm, s1.symm, s3.symm⟩
  intro n hx
  obtain ⟨x1, x2, x3⟩ := hx
  simp only [List.cons.injEq, and_true] at x1
  obtain ⟨m1, m2, m3, m4⟩ := (C45_crs a2 c2 hst s4 same hsame (· * ·)).2 x (fun i => y [i]) x3
  have hsz : [A.mat.rowN, A.mat.colN] = [C.mat.rowN, C.mat.colN] := by rw [c1.1, c1.2]
  have fin : ∀ {C' : HCrs α} {r : Res (Val α)} {h : List Nat → α}, r = .ok (.crs C') → C.SameFrame C' →
      (∀ i j, i < A.mat.rowN → j < A.mat.colN → h [i, j] = crsAt C'.mat i j) →
      Gives r (.crs C) [A.mat.rowN, A.mat.colN] h := by
    intro C' r h h1 h2 h3
    refine ⟨_, h1, ⟨h2.row, h2.col, h2.ptr, h2.ind, h2.hash, h2.frame⟩, ?_, h2.tiled, fun i j hi hj => ?_⟩
    · rw [h2.row, h2.col]; exact hsz
    · rw [h2.row] at hi
      rw [h2.col] at hj
      exact h3 i j (by omega) (by omega)
  refine ⟨fun hn => ?_, fun hn => ?_, fun hn k hk => ?_, fun hn k hk => ?_⟩
  · obtain ⟨C', g1, g2, g3⟩ := m1 (by omega) (S 0 A.mat.rowN) (hS _ _)
    refine fin (C' := C') ?_ g2 (fun i j hi hj => ?_)
    · show ((_ : Res _).bind _ : Res _) = _; rw [g1]; rfl
    · show e [i, j] * y [j] = sumAt _ i j
      rw [g3, a3 i j hi hj]
      exact (sumAt_map (fun _ j => y [j]) _ i j).symm
  · obtain ⟨C', g1, g2, g3⟩ := m2 (by omega) (S 0 A.mat.rowN) (hS _ _)
    refine fin (C' := C') ?_ g2 (fun i j hi hj => ?_)
    · show ((_ : Res _).bind _ : Res _) = _; rw [g1]; rfl
    · show e [i, j] * y [i] = sumAt _ i j
      rw [g3, a3 i j hi hj]
      exact (sumAt_map (fun i _ => y [i]) _ i j).symm
  · obtain ⟨C', g1, g2, g3⟩ := m3 (by omega) k hk
      (S 0 (A.mat.rowPtr.getD (k + 1) 0 - A.mat.rowPtr.getD k 0)) (hS _ _)
    refine fin (C' := C') ?_ g2 (fun i j hi hj => ?_)
    · show ((_ : Res _).bind _ : Res _) = _; rw [g1]; rfl
    · show (if i = k then e [i, j] * y [j] else c [i, j]) = sumAt _ i j
      rw [Crs.sumAt_entries _ (by rw [g2.row]; omega), g3 i hi,
        sumAt_select (fun i _ => i = k) (fun _ j => y [j]) _ _
          (rowEntries_pos a2.toSafe c2.toSafe hst hi) i j,
        ← Crs.sumAt_entries _ hi, ← Crs.sumAt_entries C.mat (by omega), a3 i j hi hj,
        c3 i j (by omega) (by omega)]
      rfl
  · obtain ⟨C', g1, g2, g3⟩ := m4 (by omega) k hk (S 0 A.mat.rowN) (hS _ _)
    refine fin (C' := C') ?_ g2 (fun i j hi hj => ?_)
    · show ((_ : Res _).bind _ : Res _) = _; rw [g1]; rfl
    · show (if j = k then e [i, j] * y [i] else c [i, j]) = sumAt _ i j
      rw [Crs.sumAt_entries _ (by rw [g2.row]; omega), g3 i hi,
        sumAt_select (fun _ j => j = k) (fun i _ => y [i]) _ _
          (rowEntries_pos a2.toSafe c2.toSafe hst hi) i j,
        ← Crs.sumAt_entries _ hi, ← Crs.sumAt_entries C.mat (by omega), a3 i j hi hj,
        c3 i j (by omega) (by omega)]
      rfl

/-! dense tensors -/

theorem inShape_append_last {pos : List Nat} (h : InShape (p ++ [n]) pos) :
    ∃ is j, pos = is ++ [j] ∧ InShape p is ∧ j < n := by
  obtain ⟨is, js, h1, h2, h3, -⟩ := Product.inShape_append h
  obtain ⟨j, hj, rfl⟩ := Product.inShape_one.mp h3
  exact ⟨is, j, h1, h2, hj⟩

theorem Holds.congr {v : Val α} {s : List Nat} {g g' : List Nat → α} (h : Holds v s g)
    (hg : ∀ pos, InShape s pos → g pos = g' pos) : Holds v s g' := by
  cases v with
  | vec w =>
    obtain ⟨h1, h2, h3⟩ := h
    exact ⟨h1, h2, fun i hi => by rw [h3 i hi, hg [i] (by rw [h1, Product.inShape_one]; exact ⟨i, hi, rfl⟩)]⟩
  | mat D =>
    obtain ⟨h1, h2, h3⟩ := h
    refine ⟨h1, h2, fun i j hi hj => by rw [h3 i j hi hj, hg [i, j] (by
      rw [h1, InShape.cons_iff, Product.inShape_one]; exact ⟨hi, j, hj, rfl⟩)]⟩
  | crs A =>
    obtain ⟨h1, h2, h3⟩ := h
    refine ⟨h1, h2, fun i j hi hj => by rw [← h3 i j hi hj, hg [i, j] (by
      rw [h1, InShape.cons_iff, Product.inShape_one]; exact ⟨hi, j, hj, rfl⟩)]⟩
  | ten T =>
    obtain ⟨h1, h2, h3⟩ := h
    exact ⟨h1, h2, fun pos hp => by rw [h3 pos hp, hg pos (by rw [h1]; exact hp)]⟩
  | tcrs T k =>
    obtain ⟨us, R, N, h1, h2, h3⟩ := h
    refine ⟨us, R, N, h1, h2, fun ps i k hp hi hk => ?_⟩
    rw [← h3 ps i k hp hi hk, hg]
    rw [h1]
    refine InShape.append hp ?_
    rw [InShape.cons_iff, Product.inShape_one]
    exact ⟨hi, k, hk, rfl⟩
  | num k => exact h

theorem Gives.congr {r : Res (Val α)} {C : Val α} {s : List Nat} {g g' : List Nat → α} (h : Gives r C s g)
    (hg : ∀ pos, InShape s pos → g pos = g' pos) : Gives r C s g' := by
  obtain ⟨C', h1, h2, h3⟩ := h
  exact ⟨C', h1, h2, h3.congr hg⟩

theorem gives_ten {C C' : TDense α} {r : Res (Val α)} {s : List Nat} {g : List Nat → α}
    (hr : r = .ok (.ten C')) (hs : s = C.shape) (h : SameObject C C')
    (hg : ∀ pos, InShape s pos → C'.at_ pos = .ok (g pos)) : Gives r (.ten C) s g := by
  refine ⟨_, hr, ⟨h.shape, ?_, ?_, h.frame⟩, by rw [h.shape, hs], h.wf, fun pos hp => hg pos ?_⟩
  · rw [h.rest]
  · rw [h.rest]
  · rw [h.shape] at hp; rw [hs]; exact hp

theorem ten_rows (S : Sched) (hS : ∀ d n, Order (S d n) n) (same : Bool) {f : Fn} (hf : f = .times_row ∨ f = .adds_row)
    {A C : TDense α} {x : Win α} (hsame : same = true → C = A) (hA : Holds (.ten A) (p ++ [n]) e)
    (hC : Holds (.ten C) (p ++ [n]) c) (hx : Holds (.vec x) [n] y) (hn : 0 < n) :
    Gives (f.exec S same [.ten A, .vec x, .ten C]) (.ten C) (p ++ [n])
      (fun pos => combine f (e pos) (y [pos.getLastD 0])) ∧
    ∀ k, k < volume p → Gives (f.exec S same [.ten A, .num k, .vec x, .ten C]) (.ten C) (p ++ [n])
      (fun pos => if rowMajor p pos.dropLast = k then combine f (e pos) (y [pos.getLastD 0]) else c pos) := by
  obtain ⟨a1, a2, a3⟩ := hA
  obtain ⟨c1, c2, c3⟩ := hC
  obtain ⟨x1, x2, x3⟩ := hx
  simp only [List.cons.injEq, and_true] at x1
  have hv : A.nnz / x.size = volume p := by
    rw [a2.nnz_eq, ← a1, volume_append, ← x1]
    simp [volume, Nat.mul_div_cancel _ hn]
  constructor
  · obtain ⟨C', g1, g2, g3⟩ := C86_rows a2 c2 same hsame a1.symm c1.symm hn (e := e) (c := c) a3 c3 f.op
      (y := fun i => y [i]) x3 x1.symm (order := S 0 (A.nnz / x.size)) (by rw [hv]; exact hS _ _)
    refine gives_ten (C' := C') ?_ c1 g2 (fun pos hp => ?_)
    · rcases hf with rfl | rfl <;> (show ((_ : Res _).bind _ : Res _) = _; dsimp only; rw [g1]; rfl)
    · obtain ⟨is, j, rfl, h1, h2⟩ := inShape_append_last hp
      rw [g3 is j h1 h2, op_eq]
      simp
  · intro k hk
    obtain ⟨C', g1, g2, g3⟩ := C86_row a2 c2 same hsame a1.symm c1.symm hn (e := e) (c := c) a3 c3 f.op
      (y := fun i => y [i]) x3 x1.symm (order := S 0 x.size) (by rw [← x1]; exact hS _ _) hk
    refine gives_ten (C' := C') ?_ c1 g2 (fun pos hp => ?_)
    · rcases hf with rfl | rfl <;> (show ((_ : Res _).bind _ : Res _) = _; dsimp only; rw [g1]; rfl)
    · obtain ⟨is, j, rfl, h1, h2⟩ := inShape_append_last hp
      rw [g3 is j h1 h2, op_eq]
      simp

theorem ten_cols (S : Sched) (hS : ∀ d n, Order (S d n) n) (same : Bool) {f : Fn} (hf : f = .times_col ∨ f = .adds_col)
    {A C : TDense α} {x : Win α} (hsame : same = true → C = A) (hA : Holds (.ten A) (m :: q) e)
    (hC : Holds (.ten C) (m :: q) c) (hx : Holds (.vec x) [m] y) (hm : 0 < m) :
    Gives (f.exec S same [.ten A, .vec x, .ten C]) (.ten C) (m :: q)
      (fun pos => combine f (e pos) (y [pos.headD 0])) ∧
    ∀ k, k < volume q → Gives (f.exec S same [.ten A, .num k, .vec x, .ten C]) (.ten C) (m :: q)
      (fun pos => if rowMajor q pos.tail = k then combine f (e pos) (y [pos.headD 0]) else c pos) := by
  obtain ⟨a1, a2, a3⟩ := hA
  obtain ⟨c1, c2, c3⟩ := hC
  obtain ⟨x1, x2, x3⟩ := hx
  simp only [List.cons.injEq, and_true] at x1
  constructor
  · obtain ⟨C', g1, g2, g3⟩ := C86_cols a2 c2 same hsame a1.symm c1.symm hm (e := e) (c := c) a3 c3 f.op
      (y := fun i => y [i]) x3 x1.symm (order := S 0 x.size) (by rw [← x1]; exact hS _ _)
    refine gives_ten (C' := C') ?_ c1 g2 (fun pos hp => ?_)
    · rcases hf with rfl | rfl <;> (show ((_ : Res _).bind _ : Res _) = _; dsimp only; rw [g1]; rfl)
    · obtain ⟨i, js, rfl, h1, h2⟩ := hp.exists_cons
      rw [g3 i js h1 h2, op_eq]
      simp
  · intro k hk
    obtain ⟨C', g1, g2, g3⟩ := C86_col a2 c2 same hsame a1.symm c1.symm hm (e := e) (c := c) a3 c3 f.op
      (y := fun i => y [i]) x3 x1.symm (order := S 0 x.size) (by rw [← x1]; exact hS _ _) hk
    refine gives_ten (C' := C') ?_ c1 g2 (fun pos hp => ?_)
    · rcases hf with rfl | rfl <;> (show ((_ : Res _).bind _ : Res _) = _; dsimp only; rw [g1]; rfl)
    · obtain ⟨i, js, rfl, h1, h2⟩ := hp.exists_cons
      rw [g3 i js h1 h2, op_eq]
      simp

/-! tensor_CRS -/

theorem tcrs_rows (S : Sched) (hS : ∀ d n, Order (S d n) n) (same : Bool) {A C : TCrs α} {h h' : BitVec 64} {x : Win α}
    (hsame : same = true → C = A) (hAC : Alike (.tcrs A h) (.tcrs C h')) (hA : Holds (.tcrs A h) (p ++ [n]) e)
    (hC : Holds (.tcrs C h') (p ++ [n]) c) (hx : Holds (.vec x) [n] y) :
    Gives (Fn.times_row.exec S same [.tcrs A h, .vec x, .tcrs C h']) (.tcrs C h') (p ++ [n])
      (fun pos => e pos * y [pos.getLastD 0]) := by
  obtain ⟨us, R, N, a1, a2, a3⟩ := hA
  obtain ⟨us', R', N', c1, c2, -⟩ := hC
  obtain ⟨s1, s2, s3, rfl⟩ := hAC
  obtain ⟨x1, x2, x3⟩ := hx
  simp only [List.cons.injEq, and_true] at x1
  have hsp := List.append_inj' (a1.symm.trans c1) rfl
  simp only [List.cons.injEq, and_true] at hsp
  obtain ⟨rfl, rfl, rfl⟩ := hsp
  have hN : n = N := by
    have : p ++ [n] = (us ++ [R]) ++ [N] := by simpa using a1
    have := List.append_inj' this rfl
    simpa using this.2
  obtain ⟨C', g1, g2, g3, g4, g5⟩ := C51_times_row a2 c2 ⟨by rw [a2.shape, c2.shape], s1, s2, s3⟩ same hsame x
    (by omega) (fun i => y [i]) x3 (fun d => S d R) (fun d _ => hS _ _)
  have hR : A.shape.getD (A.shape.length - 2) 0 = R := by rw [a2.shape]; simp
  refine ⟨.tcrs C' h, ?_, ⟨g3.shape, g3.ptrs, g3.inds, rfl, g4⟩, us, R, N, a1, g2, fun ps i k hp hi hk => ?_⟩
  · show ((A.timesRow _ same (fun d => S d (A.shape.getD (A.shape.length - 2) 0)) x C).bind _ : Res _) = _
    rw [hR, decide_eq_true (by rw [a2.shape, c2.shape]; exact ⟨rfl, rfl⟩), g1]
    rfl
  · show e (ps ++ [i, k]) * y [(ps ++ [i, k]).getLastD 0] = sumAt _ i k
    rw [g5 _ (rowMajor_lt hp), a3 ps i k hp hi hk]
    have : (ps ++ [i, k]).getLastD 0 = k := by
      rw [show ps ++ [i, k] = (ps ++ [i]) ++ [k] by simp]
      simp
    rw [this]
    exact (sumAt_map (fun _ j => y [j]) _ i k).symm

end Verif.LineOp
