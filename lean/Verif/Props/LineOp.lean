import Verif.Lemmas.Mask
import Verif.Lemmas.LineOp

/-!
C94: every overload of `times_row`, `times_col`, `adds_row`, `adds_col`, whatever the storage classes, multiplies or
adds the vector to the rows or columns (or to one of them).
-/

namespace Verif.LineOp

open Spec Dispatch

variable {α : Type} [Semiring α]

/-- the kinds of storage a kernel distinguishes -/
inductive Kind | vec | mat | crs | ten | tcrs | num
  deriving DecidableEq, Repr

def Val.kind : Val α → Kind
  | .vec _ => .vec
  | .mat _ => .mat
  | .crs _ => .crs
  | .ten _ => .ten
  | .tcrs _ _ => .tcrs
  | .num _ => .num

def parKind : Par → Kind
  | .obj .vector _ _ => .vec
  | .obj (.view1D _) _ _ => .vec
  | .obj .dense _ _ => .mat
  | .obj (.viewDense _) _ _ => .mat
  | .obj .crs _ _ => .crs
  | .obj .tdense _ _ => .ten
  | .obj (.viewTDense _) _ _ => .ten
  | .obj .tcrs _ _ => .tcrs
  | .num => .num

omit [Semiring α] in
theorem kind_of_fits {q : Par} {v : Val α} (h : Fits q v) : v.kind = parKind q := by
  rcases q with ⟨t, p, c⟩ | _
  · cases t <;> cases v <;> first | rfl | exact h.elim
  · cases v <;> first | rfl | exact h.elim

/-- the kinds of the matrix operands a function accepts, without and with a line number -/
def Fn.kinds : Fn → List Kind × List Kind
  | .times_row => ([.mat, .crs, .ten, .tcrs], [.mat, .crs, .ten])
  | .times_col => ([.mat, .crs, .ten], [.mat, .crs, .ten])
  | .adds_row => ([.mat, .ten], [.mat, .ten])
  | .adds_col => ([.mat, .ten], [.mat, .ten])

/-- what a row of the table must look like -/
def rowOk (o : Overload) : Bool :=
  decide (o.core = o.fn) &&
  o.pars.all (fun q => decide (parPrec q = none ∨ parPrec q = o.prec ∨
    (o.prec = none ∧ parPrec q = (o.pars.head?.bind parPrec)))) &&
  ((decide (o.args = [0, 1, 2]) && o.fn.kinds.1.any (fun k => decide (o.pars.map parKind = [k, .vec, k]))) ||
    (decide (o.args = [0, 1, 2, 3]) && o.fn.kinds.2.any (fun k => decide (o.pars.map parKind = [k, .num, .vec, k]))))

theorem rowOk_all : lines.all rowOk = true := by decide +kernel

theorem forall2_kinds {qs : List Par} {vs : List (Val α)} (h : List.Forall₂ Fits qs vs) :
    vs.map Val.kind = qs.map parKind := by
  induction h with
  | nil => rfl
  | cons h _ ih => rw [List.map_cons, List.map_cons, kind_of_fits h, ih]

/-- a call without line number runs the core on its own arguments -/
theorem run3 (S : Sched) (same : Bool) {o : Overload} (ho : o ∈ lines) {A X C : Val α}
    (hf : List.Forall₂ Fits o.pars [A, X, C]) :
    o.run S same [A, X, C] = o.fn.exec S same [A, X, C] ∧ ∃ k ∈ o.fn.kinds.1, A.kind = k ∧ X.kind = .vec ∧ C.kind = k := by
  have h := List.all_eq_true.mp rowOk_all o ho
  unfold rowOk at h
  simp only [Bool.and_eq_true, Bool.or_eq_true, decide_eq_true_eq] at h
  obtain ⟨⟨h1, h2⟩, h3⟩ := h
  have hk := forall2_kinds hf
  rcases h3 with ⟨h3, h4⟩ | ⟨h3, h4⟩
  · obtain ⟨k, h5, h6⟩ := List.any_eq_true.mp h4
    simp only [decide_eq_true_eq] at h6
    rw [h6] at hk
    simp only [List.map_cons, List.map_nil, List.cons.injEq, and_true] at hk
    refine ⟨?_, k, h5, hk.1, hk.2.1, hk.2.2⟩
    unfold Overload.run
    rw [if_pos h2, h3, h1]
    rfl
  · obtain ⟨k, h5, h6⟩ := List.any_eq_true.mp h4
    simp only [decide_eq_true_eq] at h6
    rw [h6] at hk
    simp at hk

/-- a call with a line number runs the core on its own arguments -/
theorem run4 (S : Sched) (same : Bool) {o : Overload} (ho : o ∈ lines) {A N X C : Val α}
    (hf : List.Forall₂ Fits o.pars [A, N, X, C]) :
    o.run S same [A, N, X, C] = o.fn.exec S same [A, N, X, C] ∧
      ∃ k ∈ o.fn.kinds.2, A.kind = k ∧ N.kind = .num ∧ X.kind = .vec ∧ C.kind = k := by
  have h := List.all_eq_true.mp rowOk_all o ho
  unfold rowOk at h
  simp only [Bool.and_eq_true, Bool.or_eq_true, decide_eq_true_eq] at h
  obtain ⟨⟨h1, h2⟩, h3⟩ := h
  have hk := forall2_kinds hf
  rcases h3 with ⟨h3, h4⟩ | ⟨h3, h4⟩
  · obtain ⟨k, h5, h6⟩ := List.any_eq_true.mp h4
    simp only [decide_eq_true_eq] at h6
    rw [h6] at hk
    simp at hk
  · obtain ⟨k, h5, h6⟩ := List.any_eq_true.mp h4
    simp only [decide_eq_true_eq] at h6
    rw [h6] at hk
    simp only [List.map_cons, List.map_nil, List.cons.injEq, and_true] at hk
    refine ⟨?_, k, h5, hk.1, hk.2.1, hk.2.2.1, hk.2.2.2⟩
    unfold Overload.run
    rw [if_pos h2, h3, h1]
    rfl

variable {e c y : List Nat → α} {p q : List Nat} {n m : Nat}

theorem pair_pos {a b : Nat} {pos : List Nat} (h : InShape [a, b] pos) : ∃ i j, pos = [i, j] ∧ i < a ∧ j < b := by
  obtain ⟨i, js, rfl, h1, h2⟩ := h.exists_cons
  obtain ⟨j, hj, rfl⟩ := Product.inShape_one.mp h2
  exact ⟨i, j, rfl, h1, hj⟩

/-- **C94 (by rows).** Every overload `times_row(A, x, C)` and `adds_row(A, x, C)`, for matrices, views, tensors of any
rank and compressed-row objects, in both precisions, with `A` and `C` distinct or the same object, and every schedule:
`C(.., j) = A(.., j) op x(j)`, whatever `C` held before; no other memory changes. -/
theorem C94_rows (S : Sched) (hS : ∀ d n, Order (S d n) n) {o : Overload} (ho : o ∈ lines)
    (hfn : o.fn = .times_row ∨ o.fn = .adds_row) {A X C : Val α} (hf : List.Forall₂ Fits o.pars [A, X, C])
    (same : Bool) (hsame : same = true → C = A) (hAC : Alike A C)
    (hA : Holds A (p ++ [n]) e) (hX : Holds X [n] y) (hC : Holds C (p ++ [n]) c) (hn : 0 < n) :
    ∃ C', o.run S same [A, X, C] = .ok C' ∧ Kept C C' ∧
      Holds C' (p ++ [n]) (fun pos => combine o.fn (e pos) (y [pos.getLastD 0])) := by
  obtain ⟨hr, k, hk, kA, kX, kC⟩ := run3 S same ho hf
  rw [hr]
  cases X with
  | vec x =>
    cases A with
    | mat A =>
      cases C with
      | mat C =>
        obtain ⟨h1, -, -, -⟩ := mat_all S hS same o.fn (fun h => by injection hsame h) (hA.1) hA hC n hX
        exact h1 (pair_of_append hA.1).2 hfn
      | _ => rw [← kA] at kC; cases kC
    | crs A =>
      have hfr : o.fn = .times_row := by
        rcases hfn with h | h
        · exact h
        · rw [h, ← kA] at hk; simp [Fn.kinds, Val.kind] at hk
      cases C with
      | crs C =>
        obtain ⟨h1, -, -, -⟩ := crs_all S hS same (fun h => by injection hsame h) hAC (hA.1) hA hC n hX
        rw [hfr]
        exact h1 (pair_of_append hA.1).2
      | _ => rw [← kA] at kC; cases kC
    | ten A =>
      cases C with
      | ten C => exact (ten_rows S hS same hfn (fun h => by injection hsame h) hA hC hX hn).1
      | _ => rw [← kA] at kC; cases kC
    | tcrs A h =>
      have hfr : o.fn = .times_row := by
        rcases hfn with h | h
        · exact h
        · rw [h, ← kA] at hk; simp [Fn.kinds, Val.kind] at hk
      cases C with
      | tcrs C h' =>
        rw [hfr]
        exact tcrs_rows S hS same (fun h => by injection hsame h) hAC hA hC hX
      | _ => rw [← kA] at kC; cases kC
    | vec w => rw [← kA] at hk; rcases hfn with h | h <;> rw [h] at hk <;> simp [Fn.kinds, Val.kind] at hk
    | num w => exact hA.elim
  | _ => cases kX

/-- **C94 (by columns).** Every overload `times_col(A, x, C)` and `adds_col(A, x, C)`: `C(i, ..) = A(i, ..) op x(i)`. -/
theorem C94_cols (S : Sched) (hS : ∀ d n, Order (S d n) n) {o : Overload} (ho : o ∈ lines)
    (hfn : o.fn = .times_col ∨ o.fn = .adds_col) {A X C : Val α} (hf : List.Forall₂ Fits o.pars [A, X, C])
    (same : Bool) (hsame : same = true → C = A) (hAC : Alike A C)
    (hA : Holds A (m :: q) e) (hX : Holds X [m] y) (hC : Holds C (m :: q) c) (hm : 0 < m) :
    ∃ C', o.run S same [A, X, C] = .ok C' ∧ Kept C C' ∧
      Holds C' (m :: q) (fun pos => combine o.fn (e pos) (y [pos.headD 0])) := by
  obtain ⟨hr, k, hk, kA, kX, kC⟩ := run3 S same ho hf
  rw [hr]
  cases X with
  | vec x =>
    cases A with
    | mat A =>
      cases C with
      | mat C =>
        obtain ⟨-, h1, -, -⟩ := mat_all S hS same o.fn (fun h => by injection hsame h) (hA.1) hA hC m hX
        exact h1 (List.cons.inj hA.1).1 hfn
      | _ => rw [← kA] at kC; cases kC
    | crs A =>
      have hfr : o.fn = .times_col := by
        rcases hfn with h | h
        · exact h
        · rw [h, ← kA] at hk; simp [Fn.kinds, Val.kind] at hk
      cases C with
      | crs C =>
        obtain ⟨-, h1, -, -⟩ := crs_all S hS same (fun h => by injection hsame h) hAC (hA.1) hA hC m hX
        rw [hfr]
        exact h1 (List.cons.inj hA.1).1
      | _ => rw [← kA] at kC; cases kC
    | ten A =>
      cases C with
      | ten C => exact (ten_cols S hS same hfn (fun h => by injection hsame h) hA hC hX hm).1
      | _ => rw [← kA] at kC; cases kC
    | tcrs A h => rw [← kA] at hk; rcases hfn with h | h <;> rw [h] at hk <;> simp [Fn.kinds, Val.kind] at hk
    | vec w => rw [← kA] at hk; rcases hfn with h | h <;> rw [h] at hk <;> simp [Fn.kinds, Val.kind] at hk
    | num w => exact hA.elim
  | _ => cases kX

/-- **C94 (one row).** Every overload `times_row(A, num, x, C)` and `adds_row(A, num, x, C)`: as by rows, but only in row
`num` (of a tensor: the last axis at the `num`-th position of the other axes, in storage order); the rest of `C` keeps
its elements. -/
theorem C94_row (S : Sched) (hS : ∀ d n, Order (S d n) n) {o : Overload} (ho : o ∈ lines)
    (hfn : o.fn = .times_row ∨ o.fn = .adds_row) (num : Nat) {A X C : Val α}
    (hf : List.Forall₂ Fits o.pars [A, .num num, X, C])
    (same : Bool) (hsame : same = true → C = A) (hAC : Alike A C)
    (hA : Holds A (p ++ [n]) e) (hX : Holds X [n] y) (hC : Holds C (p ++ [n]) c) (hn : 0 < n) (hnum : num < volume p) :
    ∃ C', o.run S same [A, .num num, X, C] = .ok C' ∧ Kept C C' ∧
      Holds C' (p ++ [n]) (fun pos =>
        if rowMajor p pos.dropLast = num then combine o.fn (e pos) (y [pos.getLastD 0]) else c pos) := by
  obtain ⟨hr, k, hk, kA, -, kX, kC⟩ := run4 S same ho hf
  rw [hr]
  have fix : ∀ {r : Res (Val α)} {a b : Nat} {g : List Nat → α}, p ++ [n] = [a, b] →
      Gives r C (p ++ [n]) (fun pos => if pos.headD 0 = num then g pos else c pos) →
      Gives r C (p ++ [n]) (fun pos => if rowMajor p pos.dropLast = num then g pos else c pos) := by
    intro r a b g h1 h2
    refine h2.congr (fun pos hp => ?_)
    rw [h1] at hp
    obtain ⟨i, j, rfl, hi, hj⟩ := pair_pos hp
    rw [(pair_of_append h1).1]
    show (if i = num then _ else _) = if rowMajor [a] [i] = num then _ else _
    rw [rowMajor_one]
  have vol : ∀ {a b : Nat}, p ++ [n] = [a, b] → num < a := by
    intro a b h1
    rw [(pair_of_append h1).1] at hnum
    simpa [volume] using hnum
  cases X with
  | vec x =>
    cases A with
    | mat A =>
      cases C with
      | mat C =>
        obtain ⟨-, -, h1, -⟩ := mat_all S hS same o.fn (fun h => by injection hsame h) (hA.1) hA hC n hX
        exact fix hA.1 (h1 (pair_of_append hA.1).2 hfn num (vol hA.1))
      | _ => rw [← kA] at kC; cases kC
    | crs A =>
      have hfr : o.fn = .times_row := by
        rcases hfn with h | h
        · exact h
        · rw [h, ← kA] at hk; simp [Fn.kinds, Val.kind] at hk
      cases C with
      | crs C =>
        obtain ⟨-, -, h1, -⟩ := crs_all S hS same (fun h => by injection hsame h) hAC (hA.1) hA hC n hX
        rw [hfr]
        exact fix hA.1 (h1 (pair_of_append hA.1).2 num (vol hA.1))
      | _ => rw [← kA] at kC; cases kC
    | ten A =>
      cases C with
      | ten C => exact (ten_rows S hS same hfn (fun h => by injection hsame h) hA hC hX hn).2 num hnum
      | _ => rw [← kA] at kC; cases kC
    | tcrs A h => rw [← kA] at hk; rcases hfn with h | h <;> rw [h] at hk <;> simp [Fn.kinds, Val.kind] at hk
    | vec w => rw [← kA] at hk; rcases hfn with h | h <;> rw [h] at hk <;> simp [Fn.kinds, Val.kind] at hk
    | num w => exact hA.elim
  | _ => cases kX

/-- **C94 (one column).** Every overload `times_col(A, num, x, C)` and `adds_col(A, num, x, C)`: as by columns, but only
in column `num` (of a tensor: the first axis at the `num`-th position of the other axes). -/
theorem C94_col (S : Sched) (hS : ∀ d n, Order (S d n) n) {o : Overload} (ho : o ∈ lines)
    (hfn : o.fn = .times_col ∨ o.fn = .adds_col) (num : Nat) {A X C : Val α}
    (hf : List.Forall₂ Fits o.pars [A, .num num, X, C])
    (same : Bool) (hsame : same = true → C = A) (hAC : Alike A C)
    (hA : Holds A (m :: q) e) (hX : Holds X [m] y) (hC : Holds C (m :: q) c) (hm : 0 < m) (hnum : num < volume q) :
    ∃ C', o.run S same [A, .num num, X, C] = .ok C' ∧ Kept C C' ∧
      Holds C' (m :: q) (fun pos =>
        if rowMajor q pos.tail = num then combine o.fn (e pos) (y [pos.headD 0]) else c pos) := by
  obtain ⟨hr, k, hk, kA, -, kX, kC⟩ := run4 S same ho hf
  rw [hr]
  have fix : ∀ {r : Res (Val α)} {a b : Nat} {g : List Nat → α}, m :: q = [a, b] →
      Gives r C (m :: q) (fun pos => if pos.getLastD 0 = num then g pos else c pos) →
      Gives r C (m :: q) (fun pos => if rowMajor q pos.tail = num then g pos else c pos) := by
    intro r a b g h1 h2
    refine h2.congr (fun pos hp => ?_)
    rw [h1] at hp
    obtain ⟨i, j, rfl, hi, hj⟩ := pair_pos hp
    rw [(List.cons.inj h1).2]
    simp only [List.tail_cons, rowMajor_one]
    rfl
  have vol : ∀ {a b : Nat}, m :: q = [a, b] → num < b := by
    intro a b h1
    rw [(List.cons.inj h1).2] at hnum
    simpa [volume] using hnum
  cases X with
  | vec x =>
    cases A with
    | mat A =>
      cases C with
      | mat C =>
        obtain ⟨-, -, -, h1⟩ := mat_all S hS same o.fn (fun h => by injection hsame h) (hA.1) hA hC m hX
        exact fix hA.1 (h1 (List.cons.inj hA.1).1 hfn num (vol hA.1))
      | _ => rw [← kA] at kC; cases kC
    | crs A =>
      have hfr : o.fn = .times_col := by
        rcases hfn with h | h
        · exact h
        · rw [h, ← kA] at hk; simp [Fn.kinds, Val.kind] at hk
      cases C with
      | crs C =>
        obtain ⟨-, -, -, h1⟩ := crs_all S hS same (fun h => by injection hsame h) hAC (hA.1) hA hC m hX
        rw [hfr]
        exact fix hA.1 (h1 (List.cons.inj hA.1).1 num (vol hA.1))
      | _ => rw [← kA] at kC; cases kC
    | ten A =>
      cases C with
      | ten C => exact (ten_cols S hS same hfn (fun h => by injection hsame h) hA hC hX hm).2 num hnum
      | _ => rw [← kA] at kC; cases kC
    | tcrs A h => rw [← kA] at hk; rcases hfn with h | h <;> rw [h] at hk <;> simp [Fn.kinds, Val.kind] at hk
    | vec w => rw [← kA] at hk; rcases hfn with h | h <;> rw [h] at hk <;> simp [Fn.kinds, Val.kind] at hk
    | num w => exact hA.elim
  | _ => cases kX

def vecTys : List Ty := [.vector, .view1D .vec, .view1D .mat, .view1D .ten]
def matTys : List Ty := [.dense, .viewDense .vec, .viewDense .mat, .viewDense .ten]
def tenTys : List Ty := [.tdense, .viewTDense .vec, .viewTDense .mat, .viewTDense .ten]

def fns : List Fn := [.times_row, .times_col, .adds_row, .adds_col]

/-- `f(A, x, C)` and `f(A, num, x, C)` -/
def allSig (p : Prec) (a x c : Ty) : List Par := [.obj a p true, .obj x p true, .obj c p false]
def oneSig (p : Prec) (a x c : Ty) : List Par := [.obj a p true, .num, .obj x p true, .obj c p false]

/-- the pairs of classes of `A` and `C`, without and with a line number -/
def Fn.classes (f : Fn) : List (Ty × Ty) × List (Ty × Ty) :=
  let dense := (matTys.flatMap fun a => matTys.map fun c => (a, c)) ++ (tenTys.flatMap fun a => tenTys.map fun c => (a, c))
  match f with
  | .times_row => ((.crs, .crs) :: (.tcrs, .tcrs) :: dense, (.crs, .crs) :: dense)
  | .times_col => ((.crs, .crs) :: dense, (.crs, .crs) :: dense)
  | _ => (dense, dense)

/-- `(p, a, x, c)` if the parameters are those of `f(A, x, C)` -/
def asAll : List Par → Option (Prec × Ty × Ty × Ty)
  | [.obj a p true, .obj x q true, .obj c r false] => if p = q ∧ p = r then some (p, a, x, c) else none
  | _ => none

/-- `(p, a, x, c)` if the parameters are those of `f(A, num, x, C)` -/
def asOne : List Par → Option (Prec × Ty × Ty × Ty)
  | .obj a p true :: .num :: .obj x q true :: [.obj c r false] => if p = q ∧ p = r then some (p, a, x, c) else none
  | _ => none

theorem of_asAll {ps : List Par} {p : Prec} {a x c : Ty} (h : asAll ps = some (p, a, x, c)) :
    ps = allSig p a x c := by
  unfold asAll at h
  split at h
  · split at h
    · rename_i e
      obtain ⟨e1, e2⟩ := e
      subst e1 e2
      cases h
      rfl
    · cases h
  · cases h

theorem of_asOne {ps : List Par} {p : Prec} {a x c : Ty} (h : asOne ps = some (p, a, x, c)) :
    ps = oneSig p a x c := by
  unfold asOne at h
  split at h
  · split at h
    · rename_i e
      obtain ⟨e1, e2⟩ := e
      subst e1 e2
      cases h
      rfl
    · cases h
  · cases h

def tables : List (List Overload) := tMatTimes ++ tMatAdds ++ tTenTimes ++ tTenAdds

/-- the codes of the signatures of one function -/
def codes (as : List Par → Option (Prec × Ty × Ty × Ty)) (f : Fn) : List Nat :=
  tables.flatMap fun l => l.filterMap fun o => if o.fn = f then (as o.pars).map Dispatch.sigCode else none

/-- the codes of all combinations -/
def wanted (cs : List (Ty × Ty)) : List Nat :=
  [Prec.d, Prec.s].flatMap fun p => vecTys.flatMap fun x => cs.map fun ac => Dispatch.sigCode (p, ac.1, x, ac.2)

def complete (as : List Par → Option (Prec × Ty × Ty × Ty)) (cs : List (Ty × Ty)) (f : Fn) : Bool :=
  Nat.beq (mask (wanted cs) ||| mask (codes as f)) (mask (codes as f))

theorem complete_all : (fns.all fun f => complete asAll f.classes.1 f) = true := by decide +kernel
theorem complete_one : (fns.all fun f => complete asOne f.classes.2 f) = true := by decide +kernel

theorem of_complete {as : List Par → Option (Prec × Ty × Ty × Ty)} {cs : List (Ty × Ty)} {f : Fn}
    (h : complete as cs f = true) {p : Prec} {a x c : Ty} (hx : x ∈ vecTys) (hc : (a, c) ∈ cs) :
    ∃ o ∈ lines, o.fn = f ∧ as o.pars = some (p, a, x, c) := by
  have hw : Dispatch.sigCode (p, a, x, c) ∈ wanted cs := by
    unfold wanted
    simp only [List.mem_flatMap, List.mem_map]
    exact ⟨p, by cases p <;> decide, x, hx, (a, c), hc, rfl⟩
  have h2 := subset_of_mask (Nat.eq_of_beq_eq_true h) hw
  simp only [codes, List.mem_flatMap, List.mem_filterMap] at h2
  obtain ⟨l, hl, o, ho, h5⟩ := h2
  split at h5
  · rename_i h6
    obtain ⟨s, h7, h8⟩ := Option.map_eq_some_iff.mp h5
    rw [Dispatch.sigCode_inj h8] at h7
    exact ⟨o, List.mem_flatten.mpr ⟨l, hl, ho⟩, h6, h7⟩
  · cases h5

/-- **C94 (completeness).** The four functions accept every combination of dense storage classes of the two matrix (or
tensor) operands, with every class of vector, in both precisions, with and without a line number; `times_row` and
`times_col` also accept CRS, and `times_row` without line number also tensor_CRS. -/
theorem C94_complete (f : Fn) (p : Prec) {a x c : Ty} (hx : x ∈ vecTys) :
    ((a, c) ∈ f.classes.1 → ∃ o ∈ lines, o.fn = f ∧ o.pars = allSig p a x c) ∧
      ((a, c) ∈ f.classes.2 → ∃ o ∈ lines, o.fn = f ∧ o.pars = oneSig p a x c) := by
  have hf : f ∈ fns := by cases f <;> decide
  constructor
  · intro hac
    obtain ⟨o, h1, h2, h3⟩ := of_complete (p := p) (List.all_eq_true.mp complete_all f hf) hx hac
    exact ⟨o, h1, h2, of_asAll h3⟩
  · intro hac
    obtain ⟨o, h1, h2, h3⟩ := of_complete (p := p) (List.all_eq_true.mp complete_one f hf) hx hac
    exact ⟨o, h1, h2, of_asOne h3⟩

/-- a case of `C94_row`: `times_row(A, 1, x, A)` for a CRS matrix in place and a view of a dense matrix as vector -/
example : ∃ o ∈ lines, o.fn = .times_row ∧ ∃ A X : Val Int, List.Forall₂ Fits o.pars [A, .num 1, X, A] ∧ Alike A A ∧
    Holds A ([2] ++ [2]) (fun pos => if pos = [0, 0] then 2 else if pos = [1, 1] then 3 else 0) ∧
    Holds X [2] (fun pos => if pos = [0] then 5 else 7) ∧
    o.run (fun _ n => List.range n) true [A, .num 1, X, A] =
      .ok (.crs ⟨⟨2, 2, [0, 1, 2], [0, 1], [2, 21], 2, 2, true⟩, 0⟩) := by
  obtain ⟨o, h1, h2, h3⟩ := (C94_complete .times_row .d (a := .crs) (x := .view1D .mat) (c := .crs) (by decide)).2
    (by decide)
  have hT : (⟨2, 2, [0, 1, 2], [0, 1], [2, 3], 2, 2, true⟩ : Crs Int).Tiled :=
    Crs.WF.tiled { created := rfl, lenV := rfl, nnz_le := by decide, lenP := rfl, ptr_le := by decide,
                   lenC := by decide, col_lt := by decide, ptr_zero := rfl, ptr_last := rfl, ptr_mono := by decide }
  have hF : List.Forall₂ Fits o.pars [.crs ⟨⟨2, 2, [0, 1, 2], [0, 1], [2, 3], 2, 2, true⟩, 0⟩, .num 1,
      .vec ⟨[1, 5, 7], 1, 2⟩, (.crs ⟨⟨2, 2, [0, 1, 2], [0, 1], [2, 3], 2, 2, true⟩, 0⟩ : Val Int)] := by
    rw [h3]
    exact .cons trivial (.cons trivial (.cons trivial (.cons trivial .nil)))
  refine ⟨o, h1, h2, .crs ⟨⟨2, 2, [0, 1, 2], [0, 1], [2, 3], 2, 2, true⟩, 0⟩, .vec ⟨[1, 5, 7], 1, 2⟩, hF,
    ⟨rfl, rfl, rfl, rfl⟩, ⟨rfl, hT, ?_⟩, ⟨rfl, ?_, ?_⟩, ?_⟩
  · have : ∀ i, i < 2 → ∀ j, j < 2 → (if [i, j] = [0, 0] then (2 : Int) else if [i, j] = [1, 1] then 3 else 0) =
        crsAt (⟨2, 2, [0, 1, 2], [0, 1], [2, 3], 2, 2, true⟩ : Crs Int) i j := by decide
    exact fun i j hi hj => this i hi j hj
  · unfold Win.Ok; decide
  · decide
  · rw [(run4 _ _ h1 hF).1, h2]
    rfl

/-- a case of `C94_cols` on a tensor of shape (2, 1, 2) and a view of another tensor -/
example : ∃ o ∈ lines, o.fn = .adds_col ∧ ∃ A X C : Val Int, List.Forall₂ Fits o.pars [A, X, C] ∧
    Holds A (2 :: [1, 2]) (fun pos => if pos = [0, 0, 0] then 1 else if pos = [0, 0, 1] then 2 else
      if pos = [1, 0, 0] then 3 else 4) ∧
    Holds X [2] (fun pos => if pos = [0] then 10 else 20) ∧
    Holds C (2 :: [1, 2]) (fun _ => 0) ∧
    o.run (fun _ n => List.range n) false [A, X, C] = .ok (.ten ⟨[2, 1, 2], [9, 11, 12, 23, 24], 4, 5, 1, false⟩) := by
  obtain ⟨o, h1, h2, h3⟩ := (C94_complete .adds_col .s (a := .tdense) (x := .vector) (c := .viewTDense .vec)
    (by decide)).1 (by decide)
  have hF : List.Forall₂ Fits o.pars [.ten ⟨[2, 1, 2], [1, 2, 3, 4], 4, 4, 0, true⟩, .vec ⟨[10, 20], 0, 2⟩,
      (.ten ⟨[2, 1, 2], [9, 0, 0, 0, 0], 4, 5, 1, false⟩ : Val Int)] := by
    rw [h3]
    exact .cons trivial (.cons trivial (.cons trivial .nil))
  have pos2 : ∀ pos, InShape [2, 1, 2] pos → pos ∈ [[0, 0, 0], [0, 0, 1], [1, 0, 0], [1, 0, 1]] := by
    intro pos hp
    obtain ⟨i, r, rfl, hi, hp⟩ := hp.exists_cons
    obtain ⟨j, k, rfl, hj, hk⟩ := pair_pos hp
    have : ∀ i, i < 2 → ∀ j, j < 1 → ∀ k, k < 2 → [i, j, k] ∈ [[0, 0, 0], [0, 0, 1], [1, 0, 0], [1, 0, 1]] := by decide
    exact this i hi j hj k hk
  refine ⟨o, h1, h2, _, _, _, hF, ⟨rfl, ⟨rfl, rfl, by decide⟩, ?_⟩, ⟨rfl, ?_, ?_⟩,
    ⟨rfl, ⟨rfl, rfl, by decide⟩, ?_⟩, ?_⟩
  · intro pos hp
    have : ∀ pos ∈ [[0, 0, 0], [0, 0, 1], [1, 0, 0], [1, 0, 1]],
      (⟨[2, 1, 2], [1, 2, 3, 4], 4, 4, 0, true⟩ : TDense Int).at_ pos = .ok (if pos = [0, 0, 0] then 1 else
        if pos = [0, 0, 1] then 2 else if pos = [1, 0, 0] then 3 else 4) := by decide
    exact this pos (pos2 pos hp)
  · unfold Win.Ok; decide
  · decide
  · intro pos hp
    have : ∀ pos ∈ [[0, 0, 0], [0, 0, 1], [1, 0, 0], [1, 0, 1]],
      (⟨[2, 1, 2], [9, 0, 0, 0, 0], 4, 5, 1, false⟩ : TDense Int).at_ pos = .ok 0 := by decide
    exact this pos (pos2 pos hp)
  · rw [(run3 _ _ h1 hF).1, h2]
    rfl

end Verif.LineOp
