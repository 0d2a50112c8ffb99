import Verif.Spec.ProductSpec
import Verif.Props.Matvec
import Verif.Props.TensorCrsMul

/-! The kernels behind the product functions, seen through `Holds`. -/

namespace Verif.Product

open Spec Dispatch TDense

variable {α : Type}

/-- the kinds of storage a kernel distinguishes -/
inductive Kind | vec | mat | crs | ten | tcrs | scal
  deriving DecidableEq, Repr

def Val.kind : Val α → Option Kind
  | .vec _ => some .vec
  | .mat _ => some .mat
  | .crs _ => some .crs
  | .ten _ => some .ten
  | .tcrs _ => some .tcrs
  | .scal _ => some .scal
  | .flag _ => none

def parKind : Par → Kind
  | .obj .vector _ _ => .vec
  | .obj (.view1D _) _ _ => .vec
  | .obj .dense _ _ => .mat
  | .obj (.viewDense _) _ _ => .mat
  | .obj .crs _ _ => .crs
  | .obj .tdense _ _ => .ten
  | .obj (.viewTDense _) _ _ => .ten
  | .obj .tcrs _ _ => .tcrs
  | .scal _ => .scal

theorem kind_of_fits {q : Par} {v : Val α} (h : Fits q v) : v.kind = some (parKind q) := by
  rcases q with ⟨t, p, c⟩ | p
  · cases t <;> cases v <;> first | rfl | exact h.elim
  · cases v <;> first | rfl | exact h.elim

theorem two_eq {p : List Nat} {n a b : Nat} (h : p ++ [n] = [a, b]) : p = [a] ∧ n = b := by
  rcases p with _ | ⟨x, _ | ⟨y, p⟩⟩
  · simp at h
  · simp at h; exact ⟨by rw [h.1], h.2⟩
  · simp at h

theorem one_of {n x : Nat} {q : List Nat} (h : n :: q = [x]) : n = x ∧ q = [] := by simpa using h

theorem inShape_one {n : Nat} {pos : List Nat} : InShape [n] pos ↔ ∃ i, i < n ∧ pos = [i] := by
  constructor
  · intro h
    rcases pos with _ | ⟨i, r⟩
    · cases h
    · rw [InShape.cons_iff, InShape.nil_iff] at h
      exact ⟨i, h.1, by rw [h.2]⟩
  · rintro ⟨i, hi, rfl⟩
    rw [InShape.cons_iff, InShape.nil_iff]
    exact ⟨hi, rfl⟩

theorem inShape_append {p q pos : List Nat} (h : InShape (p ++ q) pos) :
    ∃ is js, pos = is ++ js ∧ InShape p is ∧ InShape q js ∧ is.length = p.length := by
  induction p generalizing pos with
  | nil => exact ⟨[], pos, rfl, by rw [InShape.nil_iff], h, rfl⟩
  | cons a p ih =>
    rcases pos with _ | ⟨i, r⟩
    · cases h
    · rw [List.cons_append, InShape.cons_iff] at h
      obtain ⟨is, js, h1, h2, h3, h4⟩ := ih h.2
      exact ⟨i :: is, js, by rw [h1]; rfl, by rw [InShape.cons_iff]; exact ⟨h.1, h2⟩, h3, by simp [h4]⟩

theorem contraction_app [Semiring α] {r n : Nat} {e f : List Nat → α} {is js : List Nat} (h : is.length = r) :
    contraction r n e f (is ++ js) = ∑ k ∈ Finset.range n, e (is ++ [k]) * f (k :: js) := by
  subst h
  simp [contraction]

/-- a result tensor known at all positions `is ++ js` -/
theorem holds_ten [AddCommMonoid α] {C C' : TDense α} {p q : List Nat} (hs : C.shape = p ++ q) (h : SameObject C C')
    {g : List Nat → α} (hg : ∀ is js, InShape p is → InShape q js → is.length = p.length →
      C'.at_ (is ++ js) = .ok (g (is ++ js))) :
    Kept (.ten C) (.ten C') ∧ Holds (.ten C') (p ++ q) g := by
  have hr := h.rest
  refine ⟨⟨h.shape, by rw [hr], by rw [hr], h.frame⟩, by rw [h.shape, hs], h.wf, ?_⟩
  intro pos hpos
  rw [h.shape, hs] at hpos
  obtain ⟨is, js, rfl, h1, h2, h3⟩ := inShape_append hpos
  exact hg is js h1 h2 h3

/-- a result vector known at all its positions -/
theorem holds_vec [AddCommMonoid α] {w w' : Win α} (hw : w.Ok) (h : w.Updated w') {g : List Nat → α}
    (hg : ∀ i, i < w.size → w'.get i = .ok (g [i])) :
    Kept (.vec w) (.vec w') ∧ Holds (.vec w') [w.size] g := by
  have hs : w'.size = w.size := h.size
  refine ⟨h, by rw [hs], ?_, fun i hi => hg i (by omega)⟩
  unfold Win.Ok at hw ⊢
  have h1 := h.off
  have h2 := h.len
  omega

section
variable [Semiring α] {e f c : List Nat → α} {p q : List Nat} {n : Nat}

/-- what a product has to do with its operands -/
def Multiplies (r : Res (Val α)) (a b : α) (p : List Nat) (n : Nat) (q : List Nat) (e f c : List Nat → α)
    (C : Val α) : Prop :=
  ∃ C', r = .ok C' ∧ Kept C C' ∧ Holds C' (p ++ q) (fun pos => a * contraction p.length n e f pos + b * c pos)

theorem matvec_mat (B : Build) (pr : Prec) (a b : α) {A : Dense α} {x y : Win α}
    (hA : Holds (.mat A) (p ++ [n]) e) (hx : Holds (.vec x) (n :: q) f) (hy : Holds (.vec y) (p ++ q) c) :
    Multiplies (Core.exec B pr .matvec [.scal a, .mat A, .vec x, .scal b, .vec y, .flag false]) a b p n q e f c
      (.vec y) := by
  obtain ⟨a1, a2, a3⟩ := hA
  obtain ⟨x1, x2, x3⟩ := hx
  obtain ⟨y1, y2, y3⟩ := hy
  obtain ⟨rfl, rfl⟩ := two_eq a1
  obtain ⟨hn, rfl⟩ := one_of x1
  have hy' : A.rowN = y.size := by simpa using y1
  obtain ⟨y', h1, h2, h3⟩ := (C17_dense A a2 x y a b (fun i j => e [i, j]) a3 y2 (fun j => f [j]) x3).1
    hn.symm hy'.symm
  obtain ⟨k1, k2⟩ := holds_vec y2 h2 (g := fun pos => a * contraction 1 A.colN e f pos + b * c pos) (by
    intro i hi
    rw [h3 i (c [i]) (by omega) (y3 i hi)]
    rw [show ([i] : List Nat) = [i] ++ [] from rfl, contraction_app (is := [i]) (js := []) (r := 1) rfl]
    rfl)
  refine ⟨.vec y', ?_, k1, by rw [y1]; exact k2⟩
  show (Dense.matvecCore a A x b y false >>= fun y => Res.ok (Val.vec y)) = _
  rw [h1]; rfl

theorem matvec_crs (B : Build) (hB : ∀ n, Order (B.sched n) n) (pr : Prec) (a b : α) {A : Crs α} {x y : Win α}
    (hA : Holds (.crs A) (p ++ [n]) e) (hx : Holds (.vec x) (n :: q) f) (hy : Holds (.vec y) (p ++ q) c) :
    Multiplies (Core.exec B pr .matvec [.scal a, .crs A, .vec x, .scal b, .vec y, .flag false]) 1 0 p n q e f c
      (.vec y) := by
  obtain ⟨a1, a2, a3⟩ := hA
  obtain ⟨x1, x2, x3⟩ := hx
  obtain ⟨y1, y2, y3⟩ := hy
  obtain ⟨rfl, rfl⟩ := two_eq a1
  obtain ⟨hn, rfl⟩ := one_of x1
  have hy' : A.rowN = y.size := by simpa using y1
  obtain ⟨y', h1, h2, h3⟩ := C16_matvec A a2 x y hn.symm hy'.symm y2 (fun j => f [j]) x3 (B.sched A.rowN) (hB _)
  obtain ⟨k1, k2⟩ := holds_vec y2 h2 (g := fun pos => 1 * contraction 1 A.colN e f pos + 0 * c pos) (by
    intro i hi
    rw [h3 i (by omega)]
    rw [show ([i] : List Nat) = [i] ++ [] from rfl, contraction_app (is := [i]) (js := []) (r := 1) rfl, zero_mul, add_zero, one_mul]
    congr 1
    refine Finset.sum_congr rfl fun k hk => ?_
    rw [← a3 i k (by omega) (Finset.mem_range.mp hk)]
    rfl)
  refine ⟨.vec y', ?_, k1, by rw [y1]; exact k2⟩
  show (Crs.matvecCore (B.sched A.rowN) (B.sched y.size) a A x b y false >>= fun y => Res.ok (Val.vec y)) = _
  have : Crs.matvecCore (B.sched A.rowN) (B.sched y.size) a A x b y false = .ok y' := h1
  rw [this]; rfl

theorem tensvec_ten (B : Build) (pr : Prec) (a b : α) {A y : TDense α} {x : Win α} (hn : 0 < n)
    (hA : Holds (.ten A) (p ++ [n]) e) (hx : Holds (.vec x) (n :: q) f) (hy : Holds (.ten y) (p ++ q) c) :
    Multiplies (Core.exec B pr .tensvec [.scal a, .ten A, .vec x, .scal b, .ten y, .flag false]) a b p n q e f c
      (.ten y) := by
  obtain ⟨a1, a2, a3⟩ := hA
  obtain ⟨x1, x2, x3⟩ := hx
  obtain ⟨y1, y2, y3⟩ := hy
  obtain ⟨rfl, rfl⟩ := one_of x1
  obtain ⟨y', h1, h2, h3⟩ := C39_tensvec a b a2 y2 a1.symm (by simpa using y1.symm) hn a3 x3 y3
  obtain ⟨k1, k2⟩ := holds_ten y1.symm h2
    (g := fun pos => a * contraction p.length x.size e f pos + b * c pos) (by
    intro is js hi hj hl
    rw [InShape.nil_iff] at hj
    subst hj
    rw [List.append_nil, h3 is hi]
    conv_rhs => rw [← List.append_nil is, contraction_app hl]
    rw [List.append_nil])
  refine ⟨.ten y', ?_, k1, k2⟩
  show (A.tensvec a x b y >>= fun y => Res.ok (Val.ten y)) = _
  rw [h1]; rfl

theorem tcrs_shape {us : List Nat} {R N : Nat} (h : p ++ [n] = us ++ [R, N]) : p = us ++ [R] ∧ n = N := by
  rw [show us ++ [R, N] = (us ++ [R]) ++ [N] by simp] at h
  exact List.append_inj' h rfl |>.imp id (by simp)

theorem tensvec_tcrs (B : Build) (hB : ∀ n, Order (B.sched n) n) (pr : Prec) (a b : α) {A : TCrs α} {y : TDense α}
    {x : Win α}
    (hA : Holds (.tcrs A) (p ++ [n]) e) (hx : Holds (.vec x) (n :: q) f) (hy : Holds (.ten y) (p ++ q) c) :
    Multiplies (Core.exec B pr .tensvec [.scal a, .tcrs A, .vec x, .scal b, .ten y, .flag false]) 1 0 p n q e f c
      (.ten y) := by
  obtain ⟨us, R, N, a1, a2, a3⟩ := hA
  obtain ⟨x1, x2, x3⟩ := hx
  obtain ⟨y1, y2, y3⟩ := hy
  obtain ⟨rfl, rfl⟩ := one_of x1
  obtain ⟨rfl, hN⟩ := tcrs_shape a1
  obtain ⟨y', h1, h2, h3⟩ := C51_tensvec a2 hN x3 y2 (by simpa using y1.symm) (B.sched R) (hB R)
  obtain ⟨k1, k2⟩ := holds_ten y1.symm h2
    (g := fun pos => 1 * contraction (us ++ [R]).length x.size e f pos + 0 * c pos) (by
    intro is js hi hj hl
    rw [InShape.nil_iff] at hj
    subst hj
    obtain ⟨ps, i', rfl, hps, hi', hl'⟩ := inShape_append hi
    obtain ⟨i, hi2, rfl⟩ := inShape_one.mp hi'
    rw [List.append_nil, h3 ps i hps hi2]
    conv_rhs => rw [← List.append_nil (ps ++ [i]), contraction_app hl]
    rw [zero_mul, add_zero, one_mul, hN]
    congr 1
    refine Finset.sum_congr rfl fun k hk => ?_
    rw [← a3 ps i k hps hi2 (Finset.mem_range.mp hk)]
    simp)
  refine ⟨.ten y', ?_, k1, k2⟩
  have r1 : rd A.shape (A.shape.length - 2) = .ok R := by rw [rd_eq_ok, a2.shape]; simp
  show (rd A.shape (A.shape.length - 2) >>= fun r => A.tensvec (B.sched r) a x b y >>= fun y => Res.ok (Val.ten y)) = _
  rw [r1, Res.ok_bind]
  have : A.tensvec (B.sched R) a x b y = .ok y' := h1
  rw [this]; rfl

theorem mmOk_build (B : Build) (hB : ∀ n, Order (B.sched n) n) (pr : Prec) (a b : α) {X : Dense α} (hX : X.WF)
    {g : Nat → Nat → α} (hg : X.Reads g) : TCrs.MmOk (B.mm pr a b) a b X g := by
  unfold Build.mm
  rcases B with ⟨_ | _, sched⟩ <;> cases pr
  · exact TCrs.mmOk_scalar a b hX hg (hB X.colN)
  · exact TCrs.mmOk_scalar a b hX hg (hB X.colN)
  · exact TCrs.mmOk_scalar a b hX hg (hB X.colN)
  · exact TCrs.mmOk_avx a b hX hg hB

/-- a result matrix known at all its positions -/
theorem holds_mat {D D' : Dense α} (hw : D'.WF)
    (hs : D'.rowN = D.rowN ∧ D'.colN = D.colN ∧ D'.first = D.first) {g : List Nat → α}
    (hg : D'.Reads (fun i j => g [i, j]))
    (hf : ∀ k, k < D.first ∨ D.first + D.nnz ≤ k → D'.val[k]? = D.val[k]?) :
    Kept (.mat D) (.mat D') ∧ Holds (.mat D') [D.rowN, D.colN] g :=
  ⟨⟨hs.1, hs.2.1, hs.2.2, hf⟩, by rw [hs.1, hs.2.1], hw, hg⟩

theorem matmul_two (a b : α) {m N : Nat} {A : Val α} {X C : Dense α} {mul : Res (Dense α)} {e' : Nat → Nat → α}
    (he : ∀ i k, i < m → k < N → e' i k = e [i, k]) (hX : Holds (.mat X) (N :: q) f)
    (hC : Holds (.mat C) ([m] ++ q) c)
    (hmul : ∃ D, mul = .ok D ∧ D.WF ∧
      (D.rowN = C.rowN ∧ D.colN = C.colN ∧ D.first = C.first) ∧
      D.Reads (fun i j => a * mulMat N e' (fun i j => f [i, j]) i j + b * c [i, j]) ∧
      (∀ k, k < C.first ∨ C.first + C.nnz ≤ k → D.val[k]? = C.val[k]?)) :
    Multiplies (mul >>= fun D => Res.ok (Val.mat D)) a b [m] N q e f c (.mat C) := by
  obtain ⟨x1, x2, x3⟩ := hX
  obtain ⟨c1, c2, c3⟩ := hC
  obtain ⟨D, h1, h2, h3, h4, h5⟩ := hmul
  simp only [List.cons.injEq] at x1
  obtain ⟨rfl, rfl⟩ := x1
  simp only [List.cons_append, List.nil_append, List.cons.injEq, and_true] at c1
  obtain ⟨rfl, hc⟩ := c1
  obtain ⟨k1, k2⟩ := holds_mat h2 h3 (g := fun pos => a * contraction 1 X.rowN e f pos + b * c pos) (by
    intro i j hi hj
    rw [h4 i j hi hj]
    dsimp only
    rw [show ([i, j] : List Nat) = [i] ++ [j] from rfl, contraction_app (is := [i]) (js := [j]) (r := 1) rfl]
    congr 2
    congr 1
    refine Finset.sum_congr rfl fun k hk => ?_
    rw [he i k (by omega) (Finset.mem_range.mp hk)]
    rfl) h5
  refine ⟨.mat D, by rw [h1]; rfl, k1, ?_⟩
  rw [hc]
  exact k2

theorem matmul_mat (B : Build) (pr : Prec) (a b : α) {A X C : Dense α}
    (hA : Holds (.mat A) (p ++ [n]) e) (hX : Holds (.mat X) (n :: q) f) (hC : Holds (.mat C) (p ++ q) c) :
    Multiplies (Core.exec B pr .matmul_dense [.scal a, .mat A, .mat X, .scal b, .mat C, .flag false, .flag false])
      a b p n q e f c (.mat C) := by
  obtain ⟨a1, a2, a3⟩ := hA
  obtain ⟨rfl, rfl⟩ := two_eq a1
  refine matmul_two (A := .mat A) (mul := Dense.matmulCore a A X b C) a b (e' := fun i k => e [i, k])
    (fun _ _ _ _ => rfl) hX hC ?_
  obtain ⟨x1, x2, x3⟩ := hX
  obtain ⟨c1, c2, c3⟩ := hC
  simp only [List.cons.injEq] at x1
  obtain ⟨x1, rfl⟩ := x1
  simp only [List.cons_append, List.nil_append, List.cons.injEq, and_true] at c1
  exact C18_dense a b A X C a2 x2 c2 x1 c1.1 c1.2 _ _ _ a3 x3 c3

theorem matmul_crs (B : Build) (hB : ∀ n, Order (B.sched n) n) (pr : Prec) (a b : α) {A : Crs α} {X C : Dense α}
    (hA : Holds (.crs A) (p ++ [n]) e) (hX : Holds (.mat X) (n :: q) f) (hC : Holds (.mat C) (p ++ q) c) :
    Multiplies (Core.exec B pr .matmul_crs [.scal a, .crs A, .mat X, .scal b, .mat C])
      a b p n q e f c (.mat C) := by
  obtain ⟨a1, a2, a3⟩ := hA
  obtain ⟨rfl, rfl⟩ := two_eq a1
  refine matmul_two (A := .crs A) (mul := B.mm pr a b A X C) a b (e' := crsAt A)
    (fun i k hi hk => (a3 i k hi hk).symm) hX hC ?_
  obtain ⟨x1, x2, x3⟩ := hX
  obtain ⟨c1, c2, c3⟩ := hC
  simp only [List.cons.injEq] at x1
  obtain ⟨x1, rfl⟩ := x1
  simp only [List.cons_append, List.nil_append, List.cons.injEq, and_true] at c1
  exact mmOk_build B hB pr a b x2 x3 A a2 C c2 x1 c1.1 c1.2 _ c3

theorem tensmat_ten (B : Build) (pr : Prec) (a b : α) {A C : TDense α} {X : Dense α} (hn : 0 < n)
    (hA : Holds (.ten A) (p ++ [n]) e) (hX : Holds (.mat X) (n :: q) f) (hC : Holds (.ten C) (p ++ q) c) :
    Multiplies (Core.exec B pr .tensmat_dense [.scal a, .ten A, .mat X, .scal b, .ten C, .flag false, .flag false])
      a b p n q e f c (.ten C) := by
  obtain ⟨a1, a2, a3⟩ := hA
  obtain ⟨x1, x2, x3⟩ := hX
  obtain ⟨c1, c2, c3⟩ := hC
  simp only [List.cons.injEq] at x1
  obtain ⟨rfl, rfl⟩ := x1
  obtain ⟨C', h1, h2, h3⟩ := C39_tensmat a b a2 x2 c2 a1.symm c1.symm hn a3 x3 c3
  obtain ⟨k1, k2⟩ := holds_ten c1.symm h2
    (g := fun pos => a * contraction p.length X.rowN e f pos + b * c pos) (by
    intro is js hi hj hl
    obtain ⟨j, hj2, rfl⟩ := inShape_one.mp hj
    rw [h3 is j hi hj2, contraction_app hl])
  refine ⟨.ten C', ?_, k1, k2⟩
  show (A.tensmat a X b C >>= fun C => Res.ok (Val.ten C)) = _
  rw [h1]; rfl

theorem tensmat_tcrs (B : Build) (hB : ∀ n, Order (B.sched n) n) (pr : Prec) (a b : α) {A : TCrs α} {C : TDense α}
    {X : Dense α}
    (hA : Holds (.tcrs A) (p ++ [n]) e) (hX : Holds (.mat X) (n :: q) f) (hC : Holds (.ten C) (p ++ q) c) :
    Multiplies (Core.exec B pr .tensmat_crs [.scal a, .tcrs A, .mat X, .scal b, .ten C])
      a b p n q e f c (.ten C) := by
  obtain ⟨us, R, N, a1, a2, a3⟩ := hA
  obtain ⟨x1, x2, x3⟩ := hX
  obtain ⟨c1, c2, c3⟩ := hC
  simp only [List.cons.injEq] at x1
  obtain ⟨rfl, rfl⟩ := x1
  obtain ⟨rfl, rfl⟩ := tcrs_shape a1
  obtain ⟨C', h1, h2, h3⟩ := tensmatWith_ok (mmOk_build B hB pr a b x2 x3) a2 c2
    (by simpa using c1.symm) c3
  obtain ⟨k1, k2⟩ := holds_ten c1.symm h2
    (g := fun pos => a * contraction (us ++ [R]).length X.rowN e f pos + b * c pos) (by
    intro is js hi hj hl
    obtain ⟨j, hj2, rfl⟩ := inShape_one.mp hj
    obtain ⟨ps, i', rfl, hps, hi', hl'⟩ := inShape_append hi
    obtain ⟨i, hi2, rfl⟩ := inShape_one.mp hi'
    rw [contraction_app hl, show ps ++ [i] ++ [j] = ps ++ [i, j] by simp, h3 ps i j hps hi2 hj2]
    congr 3
    refine Finset.sum_congr rfl fun k hk => ?_
    rw [← a3 ps i k hps hi2 (Finset.mem_range.mp hk)]
    simp)
  refine ⟨.ten C', ?_, k1, k2⟩
  show (A.tensmatWith (B.mm pr a b) X C >>= fun C => Res.ok (Val.ten C)) = _
  rw [h1]; rfl

theorem tensmul_ten (B : Build) (pr : Prec) (a b : α) {A X C : TDense α} (hn : 0 < n)
    (hA : Holds (.ten A) (p ++ [n]) e) (hX : Holds (.ten X) (n :: q) f) (hC : Holds (.ten C) (p ++ q) c) :
    Multiplies (Core.exec B pr .tensmul_dense [.scal a, .ten A, .ten X, .scal b, .ten C, .flag false, .flag false])
      a b p n q e f c (.ten C) := by
  obtain ⟨a1, a2, a3⟩ := hA
  obtain ⟨x1, x2, x3⟩ := hX
  obtain ⟨c1, c2, c3⟩ := hC
  obtain ⟨C', h1, h2, h3⟩ := C39_tensmul a b a2 x2 c2 a1.symm x1.symm c1.symm hn a3 x3 c3
  obtain ⟨k1, k2⟩ := holds_ten c1.symm h2
    (g := fun pos => a * contraction p.length n e f pos + b * c pos) (by
    intro is js hi hj hl
    rw [h3 is js hi hj, contraction_app hl])
  refine ⟨.ten C', ?_, k1, k2⟩
  show (A.tensmul a X b C >>= fun C => Res.ok (Val.ten C)) = _
  rw [h1]; rfl

theorem posOf_one (n k : Nat) (h : k < n) : posOf [n] k = [k] := by
  have := posOf_rowMajor (shape := [n]) (pos := [k]) (by rw [InShape.cons_iff, InShape.nil_iff]; exact ⟨h, rfl⟩)
  simpa [rowMajor, volume] using this

theorem col_reads {X : TDense α} (x1 : n :: q = X.shape) (x2 : X.WF) (x3 : X.Reads f) :
    (X.asDense n (volume q)).WF ∧
      (X.asDense n (volume q)).Reads (fun i j => f (posOf [n] i ++ posOf q j)) := by
  have h := asDense_reads x2 (p := [n]) (q := q) x1.symm x3
  rw [show volume [n] = n by simp [volume]] at h
  exact ⟨asDense_wf x2 (by rw [x2.nnz_eq, ← x1, volume_cons]), h⟩

theorem tensmul_tcrs (B : Build) (hB : ∀ n, Order (B.sched n) n) (pr : Prec) (a b : α) {A : TCrs α}
    {X C : TDense α} (hn : 0 < n)
    (hA : Holds (.tcrs A) (p ++ [n]) e) (hX : Holds (.ten X) (n :: q) f) (hC : Holds (.ten C) (p ++ q) c) :
    Multiplies (Core.exec B pr .tensmul_crs [.scal a, .tcrs A, .ten X, .scal b, .ten C])
      a b p n q e f c (.ten C) := by
  obtain ⟨us, R, N, a1, a2, a3⟩ := hA
  obtain ⟨x1, x2, x3⟩ := hX
  obtain ⟨c1, c2, c3⟩ := hC
  obtain ⟨rfl, rfl⟩ := tcrs_shape a1
  obtain ⟨w, r⟩ := col_reads x1 x2 x3
  obtain ⟨C', h1, h2, h3⟩ := tensmulWith_ok (mmOk_build B hB pr a b w r) a2 x2 x1.symm hn c2
    (by simpa using c1.symm) c3
  obtain ⟨k1, k2⟩ := holds_ten c1.symm h2
    (g := fun pos => a * contraction (us ++ [R]).length n e f pos + b * c pos) (by
    intro is js hi hj hl
    obtain ⟨ps, i', rfl, hps, hi', hl'⟩ := inShape_append hi
    obtain ⟨i, hi2, rfl⟩ := inShape_one.mp hi'
    rw [contraction_app hl, show ps ++ [i] ++ js = ps ++ i :: js by simp, h3 ps i js hps hi2 hj]
    congr 3
    refine Finset.sum_congr rfl fun k hk => ?_
    rw [← a3 ps i k hps hi2 (Finset.mem_range.mp hk)]
    simp)
  refine ⟨.ten C', ?_, k1, k2⟩
  show (A.tensmulWith (B.mm pr a b) X C >>= fun C => Res.ok (Val.ten C)) = _
  rw [h1]; rfl

theorem mattens_mat (B : Build) (pr : Prec) (a b : α) {A : Dense α} {X C : TDense α} (hn : 0 < n)
    (hA : Holds (.mat A) (p ++ [n]) e) (hX : Holds (.ten X) (n :: q) f) (hC : Holds (.ten C) (p ++ q) c) :
    Multiplies (Core.exec B pr .mattens_dense [.scal a, .mat A, .ten X, .scal b, .ten C, .flag false, .flag false])
      a b p n q e f c (.ten C) := by
  obtain ⟨a1, a2, a3⟩ := hA
  obtain ⟨x1, x2, x3⟩ := hX
  obtain ⟨c1, c2, c3⟩ := hC
  obtain ⟨rfl, rfl⟩ := two_eq a1
  obtain ⟨C', h1, h2, h3⟩ := C39_mattens a b a2 x2 c2 x1.symm c1.symm hn (e := fun i k => e [i, k]) a3 x3 c3
  obtain ⟨k1, k2⟩ := holds_ten c1.symm h2
    (g := fun pos => a * contraction 1 A.colN e f pos + b * c pos) (by
    intro is js hi hj hl
    obtain ⟨i, hi2, rfl⟩ := inShape_one.mp hi
    rw [contraction_app (is := [i]) (r := 1) rfl, show [i] ++ js = i :: js from rfl, h3 i js hi2 hj]
    rfl)
  refine ⟨.ten C', ?_, k1, k2⟩
  show (TDense.mattens a A X b C >>= fun C => Res.ok (Val.ten C)) = _
  rw [h1]; rfl

/-- a product written through the matrix view of the result tensor -/
theorem contract_gen {C : TDense α} (hC : C.WF) (hs : C.shape = p ++ q) {r s : Nat} (hr : r = volume p)
    (hq : s = volume q) {mul : Dense α → Res (Dense α)} {g : Nat → Nat → α}
    (hmul : ∃ D, mul (C.asDense r s) = .ok D ∧ D.WF ∧
      (D.rowN = r ∧ D.colN = s ∧ D.first = C.first) ∧ D.Reads g ∧
      (∀ k, k < C.first ∨ C.first + C.nnz ≤ k → D.val[k]? = C.val[k]?)) :
    ∃ C', (do
        let Cm ← C.toDense r s
        let D ← mul Cm
        .ok { C with val := D.val }) = Res.ok C' ∧ SameObject C C' ∧
      ∀ is js, InShape p is → InShape q js → C'.at_ (is ++ js) = .ok (g (rowMajor p is) (rowMajor q js)) := by
  obtain ⟨D, h1, h2, ⟨h3, h4, h5⟩, h6, h7⟩ := hmul
  have hv : r * s = C.nnz := by rw [hC.nnz_eq, hs, volume_append, hr, hq]
  rw [toDense_both hv, Res.ok_bind]
  have hlen : D.val.length = C.val.length := by
    have key : ∀ k, C.first + C.nnz ≤ k → D.val[k]? = C.val[k]? := fun k hk => h7 k (Or.inr hk)
    have w1 := h2.window; have w2 := h2.lenV; have w3 := h2.nnz_eq
    have w4 := hC.window; have w5 := hC.lenV
    rw [h3, h4] at w3
    rw [hv] at w3
    by_contra hne
    rcases Nat.lt_or_gt_of_ne hne with hlt | hlt
    · have := key D.val.length (by omega)
      rw [List.getElem?_eq_none (by omega), List.getElem?_eq_getElem hlt] at this
      cases this
    · have := key C.val.length (by omega)
      rw [List.getElem?_eq_none (l := C.val) (by omega), List.getElem?_eq_getElem hlt] at this
      cases this
  obtain ⟨g1, g2⟩ := reads_of_dense hC hs h2 (by rw [h3, hr]) (by rw [h4, hq]) h5 hlen h6
  exact ⟨{ C with val := D.val }, by rw [h1]; rfl, ⟨g1, rfl, rfl, h7⟩, g2⟩

theorem mattens_crs (B : Build) (hB : ∀ n, Order (B.sched n) n) (pr : Prec) (a b : α) {A : Crs α}
    {X C : TDense α} (hn : 0 < n)
    (hA : Holds (.crs A) (p ++ [n]) e) (hX : Holds (.ten X) (n :: q) f) (hC : Holds (.ten C) (p ++ q) c) :
    Multiplies (Core.exec B pr .mattens_crs [.scal a, .crs A, .ten X, .scal b, .ten C])
      a b p n q e f c (.ten C) := by
  obtain ⟨a1, a2, a3⟩ := hA
  obtain ⟨x1, x2, x3⟩ := hX
  obtain ⟨c1, c2, c3⟩ := hC
  obtain ⟨rfl, rfl⟩ := two_eq a1
  obtain ⟨w, r⟩ := col_reads x1 x2 x3
  have v1 : volume [A.rowN] = A.rowN := by simp [volume]
  have rC := asDense_reads c2 (p := [A.rowN]) (q := q) c1.symm c3
  rw [v1] at rC
  have hv : A.rowN * volume q = C.nnz := by rw [c2.nnz_eq, ← c1, volume_append, v1]
  have hm := mmOk_build B hB pr a b w r A a2 (C.asDense A.rowN (volume q)) (asDense_wf c2 hv) rfl rfl rfl _ rC
  obtain ⟨D, m1, m2, m3, m4, m5⟩ := hm
  obtain ⟨C', h1, h2, h3⟩ := contract_gen c2 c1.symm v1.symm rfl
    (mul := fun D => B.mm pr a b A (X.asDense A.colN (volume q)) D) ⟨D, m1, m2, m3, m4, m5⟩
  obtain ⟨k1, k2⟩ := holds_ten c1.symm h2
    (g := fun pos => a * contraction 1 A.colN e f pos + b * c pos) (by
    intro is js hi hj hl
    rw [h3 is js hi hj]
    obtain ⟨i, hi', rfl⟩ := inShape_one.mp hi
    rw [contraction_app (is := [i]) (r := 1) rfl, posOf_rowMajor hj, posOf_rowMajor hi]
    congr 3
    refine Finset.sum_congr rfl fun k hk => ?_
    rw [Finset.mem_range] at hk
    dsimp only
    rw [posOf_rowMajor hj, posOf_one _ _ hk]
    have : rowMajor [A.rowN] [i] = i := by simp [rowMajor, volume]
    rw [this, ← a3 i k hi' hk]
    rfl)
  refine ⟨.ten C', ?_, k1, k2⟩
  show (A.mattensWith (B.mm pr a b) X C >>= fun C => Res.ok (Val.ten C)) = _
  have hx0 : rd X.shape 0 = .ok A.colN := by rw [← x1]; rfl
  have : A.mattensWith (B.mm pr a b) X C = .ok C' := by
    unfold Crs.mattensWith
    rw [hx0, Res.ok_bind, toDense_col x2 x1.symm hn, Res.ok_bind]
    exact h1
  rw [this]; rfl

end

end Verif.Product
