import Verif.Props.LinOpMM
import Mathlib.Algebra.Field.Rat

/-!
# C61: where LinearOperators do not behave as matrices
-/

namespace Verif
namespace LinOp

open Spec

variable {α : Type} [Field α] {ord : Nat → List Nat} {σ : Store α} {tr : Bool}

/-! ## Results written into an operand -/

theorem call_self {a : Nat} {f : Clo α} {A : Op α} (hA : σ a = .op A) (hf : A.fn tr = some f)
    (hkind : (∃ b, f = .add a b ∨ f = .sub a b) ∨
      ∃ s, f = .sadd a s ∨ f = .ssub a s ∨ f = .smul a s ∨ f = .sdiv a s)
    (n : Nat) (x : List α) (hx : x.length = A.inN tr) :
    call ord σ tr n f x = .ub "endless recursion" := by
  induction n with
  | zero => rfl
  | succ n ih =>
    have h : applyOp (call ord σ tr n) σ tr a x (A.outN tr) = .ub "endless recursion" := by
      unfold applyOp
      rw [getOp_ok hA, Res.ok_bind, cassert_decide rfl, Res.ok_bind, cassert_decide hx.symm, Res.ok_bind, hf]
      simp only [ih]
      rfl
    rcases hkind with ⟨b, rfl | rfl⟩ | ⟨s, rfl | rfl | rfl | rfl⟩ <;>
      (simp only [call, getOp_ok hA, Res.ok_bind, h]; rfl)

theorem applyOp_self {a : Nat} {f : Clo α} {A : Op α} (hA : σ a = .op A) (hf : A.fn tr = some f)
    (hkind : (∃ b, f = .add a b ∨ f = .sub a b) ∨
      ∃ s, f = .sadd a s ∨ f = .ssub a s ∨ f = .smul a s ∨ f = .sdiv a s)
    (n : Nat) (x : List α) (hx : x.length = A.inN tr) :
    matvec ord n σ tr a x (A.outN tr) = .ub "endless recursion" := by
  unfold matvec applyOp
  rw [getOp_ok hA, Res.ok_bind, cassert_decide rfl, Res.ok_bind, cassert_decide hx.symm, Res.ok_bind, hf]
  simp only [call_self hA hf hkind n x hx]
  rfl

/-- **C61 is violated (in-place sum).** `matadd(A, B, A)` is accepted for all operators of the same size, and
then every `matvec` with `A` recurses without end, whatever `A` and `B` were. -/
theorem C61_inplace_violated {a b r k : Nat} {A B : Op α} (hA : σ a = .op A) (hB : σ b = .op B)
    (ar : A.rowN = r) (ak : A.colN = k) (br : B.rowN = r) (bk : B.colN = k) (f : Nat → Nat → Clo α)
    (hf : f = .add ∨ f = .sub) (h1 : A.mv.isSome) (h2 : B.mv.isSome) (h3 : A.rmv = none) (h4 : B.rmv = none) :
    ∃ σ', addsub f σ a b a = .ok σ' ∧
      ∀ n (x : List α), x.length = k → matvec ord n σ' false a x r = .ub "endless recursion" := by
  refine ⟨σ.set a (.op (setFns A A (f a b))), ?_, ?_⟩
  · unfold addsub
    simp [getOp_ok hA, getOp_ok hB, sameSize, ar, ak, br, bk, h1, h2, h3, h4, cassert]
  · intro n x hx
    have h := applyOp_self (ord := ord) (tr := false) (σ := σ.set a (.op (setFns A A (f a b)))) (a := a)
      (f := f a b) (A := setFns A A (f a b)) (set_self _ _ _) (by simp [Op.fn, setFns, h1])
      (.inl ⟨b, by rcases hf with rfl | rfl <;> simp⟩) n x (by simp [Op.inN, setFns, ak, hx])
    simpa [Op.outN, setFns, ar] using h

/-- **C61 is violated (in-place scaling).** `vml::mul(A, alpha, A)` and the other scalar operations too. -/
theorem C61_inplace_scalar_violated {a s r k : Nat} {A : Op α} {u : α} (hA : σ a = .op A) (hs : σ s = .scalar u)
    (ar : A.rowN = r) (ak : A.colN = k) (f : Nat → Nat → Clo α)
    (hf : f = .sadd ∨ f = .ssub ∨ f = .smul ∨ f = .sdiv) (h1 : A.mv.isSome) :
    ∃ σ', scalarOp f σ a s a = .ok σ' ∧
      ∀ n (x : List α), x.length = k → matvec ord n σ' false a x r = .ub "endless recursion" := by
  refine ⟨σ.set a (.op (setFns A A (f a s))), ?_, ?_⟩
  · unfold scalarOp
    simp [getOp_ok hA, getScalar_ok hs, sameSize, cassert]
  · intro n x hx
    have h := applyOp_self (ord := ord) (tr := false) (σ := σ.set a (.op (setFns A A (f a s)))) (a := a)
      (f := f a s) (A := setFns A A (f a s)) (set_self _ _ _) (by simp [Op.fn, setFns, h1])
      (.inr ⟨s, by rcases hf with rfl | rfl | rfl | rfl <;> simp⟩) n x (by simp [Op.inN, setFns, ak, hx])
    simpa [Op.outN, setFns, ar] using h

/-! ## Lifetimes -/

/-- **C61 is violated (temporary scalar).** The result of `vml::mul(A, alpha, C)` (and add, sub, div) refers to
the object bound to `alpha`: when that object is gone, as for every call with a literal or an expression, each
`matvec` with `C` reads a dead object. -/
theorem C61_temporary_scalar_violated {a s c r k : Nat} {M : Nat → Nat → α} {u : α} {C : Op α}
    (f : Nat → Nat → Clo α) (hkind : f = .sadd ∨ f = .ssub ∨ f = .smul ∨ f = .sdiv)
    (hA : Acts ord σ tr a r k M) (hs : σ s = .scalar u) (hC : σ c = .op C) (hr : C.rowN = r) (hk : C.colN = k)
    (ha : ¬ Uses σ a c) (has : ¬ Uses σ a s) :
    ∃ σ', scalarOp f σ a s c = .ok σ' ∧
      ∃ n0, ∀ n, n0 ≤ n → ∀ x : List α, x.length = (if tr then r else k) →
        matvec ord n (σ'.set s .dead) tr c x (if tr then k else r) = .ub "dangling reference" := by
  obtain ⟨C', h1, h2, h3, h4⟩ := scalarOp_ok f hA hs hC hr hk
  have hsc : s ≠ c := by intro h; subst h; rw [hs] at hC; exact absurd hC (by simp)
  refine ⟨_, h1, ?_⟩
  have hac : a ≠ c := fun h => ha (h ▸ .self a)
  have hAs : a ≠ s := fun h => has (h ▸ .self a)
  -- the operand still acts
  have hA2 : Acts ord ((σ.set c (.op C')).set s .dead) tr a r k M := by
    refine hA.frame ?_
    intro d hd
    have e1 : d ≠ s := fun h => has (h ▸ hd)
    have e2 : d ≠ c := fun h => ha (h ▸ hd)
    rw [set_ne _ _ e1, set_ne _ _ e2]
  obtain ⟨n1, q1⟩ := hA2.call
  obtain ⟨L, hL, lr, lk⟩ := hA2.op
  refine ⟨n1 + 1, fun n hn x hx => ?_⟩
  obtain ⟨n, rfl⟩ : ∃ m, n = m + 1 := ⟨n - 1, by omega⟩
  have hcc : ((σ.set c (.op C')).set s .dead) c = .op C' := by
    rw [set_ne _ _ (Ne.symm hsc), set_self]
  have ho : C'.outN tr = if tr then k else r := by cases tr <;> simp [Op.outN, h2, h3]
  have hi : C'.inN tr = x.length := by rw [hx]; cases tr <;> simp [Op.inN, h2, h3]
  have hlo : L.outN tr = if tr then k else r := by cases tr <;> simp [Op.outN, lr, lk]
  have q2 := q1 n (by omega) x hx
  unfold matvec at q2
  have hdead : getScalar ((σ.set c (.op C')).set s .dead) s = .ub "dangling reference" := by
    unfold getScalar; rw [set_self]
  unfold matvec applyOp
  rw [getOp_ok hcc, Res.ok_bind, cassert_decide ho, Res.ok_bind, cassert_decide hi, Res.ok_bind, h4]
  rcases hkind with rfl | rfl | rfl | rfl <;>
    (simp only [call, getOp_ok hL, Res.ok_bind, hlo, q2, hdead]; rfl)

/-- **C61 is violated (copy outlives the original).** A copy of an operator converted from a CRS matrix refers
to the operator it was copied from: when that one is gone every `matvec` with the copy reads a dead object. -/
theorem C61_copy_dangling_violated {l m c : Nat} {L : Op α} {A : Crs α} (hL : σ l = .op L) (hm : σ m = .crs A)
    (hcl : c ≠ l) :
    ∃ σ1 σ2, convertCrs σ l m = .ok σ1 ∧ copy σ1 l c = .ok σ2 ∧
      ∀ n (x : List α), 0 < n → x.length = A.colN →
        matvec ord n (σ2.set l .dead) false c x A.rowN = .ub "dangling reference" := by
  refine ⟨_, _, by simp only [convertCrs, getOp_ok hL, getCrs, hm, Res.ok_bind]; rfl,
    by simp only [copy, getOp_ok (set_self _ _ _), Res.ok_bind]; rfl, ?_⟩
  intro n x hn hx
  obtain ⟨n, rfl⟩ : ∃ m, n = m + 1 := ⟨n - 1, by omega⟩
  unfold matvec applyOp
  simp only [getOp, set_ne _ _ hcl, set_self, Res.ok_bind, Op.outN, Op.inN, hx, Op.fn, call, cassert]
  simp only [decide_true, Bool.false_eq_true, if_false, if_true, Res.ok_bind, set_self]
  rfl

/-! ## Callbacks that are dropped or kept -/

/-- **C61 is violated (copy drops matmul).** `matmul` through a copy throws, whatever the original could do. -/
theorem C61_copy_matmul_violated {a c : Nat} {A : Op α} (hA : σ a = .op A) :
    ∃ σ', copy σ a c = .ok σ' ∧ ∀ B C : Dense α, B.rowN = A.colN → C.rowN = A.rowN → C.colN = B.colN →
      matmulDense ord σ' c B C = .throw "error matmul is not initialized" := by
  refine ⟨_, by simp only [copy, getOp_ok hA, Res.ok_bind]; rfl, ?_⟩
  intro B C h1 h2 h3
  unfold matmulDense
  rw [getOp_ok (set_self _ _ _), Res.ok_bind, cassert_decide h1.symm, Res.ok_bind, cassert_decide h2.symm,
    Res.ok_bind, cassert_decide h3.symm, Res.ok_bind]

/-- **C61 is violated (stale matmul).** `matadd(A, B, C)` into an operator `C` converted from a matrix replaces
its matvec but not its matmul: every product `matmul(C, X, Y)` still gives the product with the old matrix. -/
theorem C61_stale_matmul_violated (hord : ∀ n, Order (ord n) n) {a b c m r k : Nat} {M N : Nat → Nat → α}
    {L : Op α} {E : Crs α} (hL : σ c = .op L) (hm : σ m = .crs E) (hE : E.Safe) (her : E.rowN = r)
    (hek : E.colN = k) (hA : Acts ord σ false a r k M) (hB : Acts ord σ false b r k N)
    (hcb : SameCallbacks σ a b) (ha : ¬ Uses σ a c) (hb : ¬ Uses σ b c) :
    ∃ σ1 σ2, convertCrs σ c m = .ok σ1 ∧ addsub .add σ1 a b c = .ok σ2 ∧
      Acts ord σ2 false c r k (fun i j => M i j + N i j) ∧ MatmulIs ord σ2 c r k (crsAt E) := by
  subst her; subst hek
  have hmc : m ≠ c := by intro h; subst h; rw [hL] at hm; exact absurd hm (by simp)
  have hac : a ≠ c := fun h => ha (h ▸ .self a)
  have hbc : b ≠ c := fun h => hb (h ▸ .self b)
  let c1 : Op α := ⟨E.rowN, E.colN, some (.crs c m), none, some (.crs c m), none⟩
  have hcv : convertCrs σ c m = .ok (σ.set c (.op c1)) := by
    simp only [convertCrs, getOp_ok hL, getCrs, hm, Res.ok_bind]; rfl
  have hA1 : Acts ord (σ.set c (.op c1)) false a E.rowN E.colN M := hA.set ha
  have hB1 : Acts ord (σ.set c (.op c1)) false b E.rowN E.colN N := hB.set hb
  have hcb1 : SameCallbacks (σ.set c (.op c1)) a b := by
    intro X Y hX hY
    rw [set_ne _ _ hac] at hX; rw [set_ne _ _ hbc] at hY
    exact hcb X Y hX hY
  obtain ⟨A, hAo, ar, ak⟩ := hA1.op
  obtain ⟨B, hBo, br, bk⟩ := hB1.op
  obtain ⟨g, hg⟩ := hA1.fn_some hAo
  obtain ⟨e1, e2⟩ := hcb1 A B hAo hBo
  have hsame : ∀ X : Op α, X.rowN = E.rowN → sameSize A X = true := by
    intro X hX; simp [sameSize, ar, hX]
  refine ⟨_, (σ.set c (.op c1)).set c (.op (setFns A c1 (.add a b))), hcv, ?_, ?_, ?_⟩
  · unfold addsub
    rw [getOp_ok hAo, Res.ok_bind, getOp_ok hBo, Res.ok_bind, getOp_ok (set_self _ _ _), Res.ok_bind,
      hsame B br, hsame c1 rfl]
    simp [cassert, e1, e2]
  · have hset : ∀ d, d ≠ c → ((σ.set c (.op c1)).set c (.op (setFns A c1 (.add a b)))) d = σ d := by
      intro d hd; rw [set_ne _ _ hd, set_ne _ _ hd]
    have hA2 : Acts ord ((σ.set c (.op c1)).set c (.op (setFns A c1 (.add a b)))) false a E.rowN E.colN M :=
      hA.frame (fun d hd => hset d (fun h => ha (h ▸ hd)))
    have hB2 : Acts ord ((σ.set c (.op c1)).set c (.op (setFns A c1 (.add a b)))) false b E.rowN E.colN N :=
      hB.frame (fun d hd => hset d (fun h => hb (h ▸ hd)))
    exact C40_add_live (C := setFns A c1 (.add a b)) (set_self _ _ _) rfl rfl (setFns_fn hg) hA2 hB2
  · refine matmulIs_of_callMM (g := .crs c m) (set_self _ _ _) rfl rfl rfl (fun D hD h1 f hf => ?_)
    obtain ⟨Z, R, z1, q1, q2, q3, q4, q5⟩ := crs_mm hord E hE D hD h1 f hf
    refine ⟨R, ?_, q2, q3, q4, q5⟩
    simp only [callMM, getCrs, set_ne _ _ hmc, hm, Res.ok_bind, z1, getOp_ok (set_self _ _ _), q1]

/-- **C61 is violated (stale rmatvec).** Assigning an operator without rmatvec keeps the rmatvec of the target:
after `C = A`, `rmatvec` with `C` is the old one although `rmatvec` with `A` throws. -/
theorem C61_stale_rmatvec_violated {a c : Nat} {A C : Op α} {g : List α → Res (List α)} (hA : σ a = .op A)
    (hC : σ c = .op C) (h1 : A.rmv = none) (h2 : C.rmv = some (.user g)) (hac : a ≠ c) :
    ∃ σ', assign σ a c = .ok σ' ∧ ∀ n (x : List α), 0 < n → x.length = A.rowN →
      matvec ord n σ' true a x A.colN = .throw "error matvec is not initialized" ∧
      ∀ y, g x = .ok y → y.length = A.colN → matvec ord n σ' true c x A.colN = .ok y := by
  refine ⟨_, by simp only [assign, getOp_ok hA, getOp_ok hC, Res.ok_bind]; rfl, ?_⟩
  intro n x hn hx
  obtain ⟨n, rfl⟩ : ∃ m, n = m + 1 := ⟨n - 1, by omega⟩
  constructor
  · unfold matvec applyOp
    simp [getOp, set_ne _ _ hac, hA, Op.outN, Op.inN, hx, Op.fn, h1, cassert]
  · intro y hy hl
    unfold matvec applyOp
    simp [getOp, set_self, Op.outN, Op.inN, hx, Op.fn, h1, h2, cassert, call, hy, hl]

/-- **C61 is violated (size check).** Operators that differ only in their number of rows are accepted by
`matadd`, and every later `matvec` aborts. -/
theorem C61_size_violated {a b c r r' k : Nat} {M : Nat → Nat → α} {B C : Op α} (hA : Acts ord σ false a r k M)
    (hB : σ b = .op B) (br : B.rowN = r') (bk : B.colN = k) (hne : r' ≠ r) (hcb : SameCallbacks σ a b)
    (hC : σ c = .op C) (hr : C.rowN = r) (hk : C.colN = k) (ha : ¬ Uses σ a c) (hbc : b ≠ c) :
    ∃ σ', addsub .add σ a b c = .ok σ' ∧
      ∃ n0, ∀ n, n0 ≤ n → ∀ x : List α, x.length = k → ∃ e, matvec ord n σ' false c x r = .abort e := by
  obtain ⟨A, hAo, ar, ak⟩ := hA.op
  obtain ⟨g, hg⟩ := hA.fn_some hAo
  obtain ⟨e1, e2⟩ := hcb A B hAo hB
  have hsame : ∀ X : Op α, X.colN = k → sameSize A X = true := by
    intro X hX; simp [sameSize, ak, hX]
  refine ⟨σ.set c (.op (setFns A C (.add a b))), ?_, ?_⟩
  · unfold addsub
    rw [getOp_ok hAo, Res.ok_bind, getOp_ok hB, Res.ok_bind, getOp_ok hC, Res.ok_bind, hsame B bk, hsame C hk]
    simp [cassert, e1, e2]
  · have hA2 : Acts ord (σ.set c (.op (setFns A C (.add a b)))) false a r k M := hA.set ha
    have hac : a ≠ c := fun h => ha (h ▸ .self a)
    obtain ⟨n1, q1⟩ := hA2.call
    refine ⟨n1 + 1, fun n hn x hx => ?_⟩
    obtain ⟨n, rfl⟩ : ∃ m, n = m + 1 := ⟨n - 1, by omega⟩
    have q2 := q1 n (by omega) x hx
    unfold matvec at q2
    have hAo' : (σ.set c (.op (setFns A C (.add a b)))) a = .op A := by rw [set_ne _ _ hac]; exact hAo
    have hBo' : (σ.set c (.op (setFns A C (.add a b)))) b = .op B := by rw [set_ne _ _ hbc]; exact hB
    have hCo' := set_self σ c (.op (setFns A C (.add a b)))
    have hfn : (setFns A C (.add a b)).fn false = some (.add a b) := setFns_fn hg
    have hb : ∃ e, applyOp (call ord (σ.set c (.op (setFns A C (.add a b)))) false n)
        (σ.set c (.op (setFns A C (.add a b)))) false b x r = .abort e := by
      unfold applyOp
      rw [getOp_ok hBo', Res.ok_bind]
      simp only [Op.outN, br]
      simp [cassert, hne]
    obtain ⟨e, hb⟩ := hb
    refine ⟨e, ?_⟩
    unfold matvec applyOp
    rw [getOp_ok hCo', Res.ok_bind, cassert_decide (by simp [Op.outN, setFns, hr]), Res.ok_bind,
      cassert_decide (by simp [Op.inN, setFns, hk, hx]), Res.ok_bind, hfn]
    have hao : A.outN false = r := by simp [Op.outN, ar]
    simp only [Bool.false_eq_true, if_false] at q2
    simp only [call, getOp_ok hAo', Res.ok_bind, hao, q2, hb]
    rfl

/-- **C40 (uninitialised).** An operator without matvec is converted to the zero matrix. -/
theorem C40_to_dense_uninit {a : Nat} {A : Op α} (hA : σ a = .op A) (h : A.mv = none) (C : Dense α) (hC : C.WF)
    (hr : C.rowN = A.rowN) (hk : C.colN = A.colN) (n : Nat) :
    ∃ C', toDense ord n σ a C = .ok C' ∧ C'.WF ∧ C'.Reads (fun _ _ => 0) := by
  unfold toDense
  rw [getOp_ok hA, Res.ok_bind, h]
  obtain ⟨Z, z1, z2, z3, z4, z5, z6, z7⟩ := Dense.new_ok (α := α) A.rowN A.colN
  simp only [z1, Res.ok_bind]
  obtain ⟨C', q1, q2, -, q4, -⟩ := assignDense_ok C Z hC z2 (by rw [hr, z4]) (by rw [hk, z5]) (fun _ _ => 0)
    (fun i j hi hj => Dense.at_of_getElem? z2 hi hj (by
      have hlt := z2.idx_lt hi hj
      have := z2.nnz_eq
      rw [z7, List.getElem?_replicate_of_lt]
      rw [z3, ← z4, ← z5]; omega))
  exact ⟨C', q1, q2, q4⟩

/-! ## A store in which the hypotheses hold -/

/-- Two dense 2×2 matrices (2, 3), the operators to be converted from them (0, 1), a target (4), a scalar (5),
a CRS matrix (6). -/
def demo : Store ℚ := fun i =>
  match i with
  | 0 => .op ⟨2, 2, some (.dense 0 2), none, some (.dense 0 2), none⟩
  | 1 => .op ⟨2, 2, some (.dense 1 3), none, some (.dense 1 3), none⟩
  | 2 => .dense ⟨2, 2, [1, 2, 3, 4], 4, 4, 0, true⟩
  | 3 => .dense ⟨2, 2, [5, 6, 7, 8], 4, 4, 0, true⟩
  | 4 => .op ⟨2, 2, none, none, none, none⟩
  | 5 => .scalar 3
  | 6 => .crs ⟨2, 2, [0, 1, 2], [1, 0], [3, 5], 2, 2, true⟩
  | _ => .dead

def demoMat (l : List ℚ) : Nat → Nat → ℚ := fun i j => l.getD (2 * i + j) 0

theorem demo_reads (l : List ℚ) (hl : l.length = 4) :
    (⟨2, 2, l, 4, 4, 0, true⟩ : Dense ℚ).WF ∧ (⟨2, 2, l, 4, 4, 0, true⟩ : Dense ℚ).Reads (demoMat l) := by
  have hW : (⟨2, 2, l, 4, 4, 0, true⟩ : Dense ℚ).WF := ⟨hl, rfl, by simp⟩
  refine ⟨hW, fun i j hi hj => Dense.at_of_getElem? hW hi hj ?_⟩
  simp only at hi hj
  have h : 2 * i + j < l.length := by omega
  simp [demoMat, List.getD, List.getElem?_eq_getElem h]

/-- The operators of `demo` act as their matrices (each is what `convert` stores). -/
theorem demo_acts : Acts ord demo false 0 2 2 (demoMat [1, 2, 3, 4]) ∧
    Acts ord demo false 1 2 2 (demoMat [5, 6, 7, 8]) := by
  constructor
  · obtain ⟨σ', h1, h2, h3⟩ := C40_convert_dense (ord := ord) (σ := demo) (l := 0) (m := 2) rfl rfl
      (demo_reads [1, 2, 3, 4] rfl).1 (demo_reads [1, 2, 3, 4] rfl).2
    refine h3.frame (fun d _ => ?_)
    by_cases hd : d = 0
    · subst hd
      have : σ' = demo.set 0 (demo 0) := by injection h1 with h1; exact h1.symm
      rw [this]; rfl
    · exact (h2 d hd).symm
  · obtain ⟨σ', h1, h2, h3⟩ := C40_convert_dense (ord := ord) (σ := demo) (l := 1) (m := 3) rfl rfl
      (demo_reads [5, 6, 7, 8] rfl).1 (demo_reads [5, 6, 7, 8] rfl).2
    refine h3.frame (fun d _ => ?_)
    by_cases hd : d = 1
    · subst hd
      have : σ' = demo.set 1 (demo 1) := by injection h1 with h1; exact h1.symm
      rw [this]; rfl
    · exact (h2 d hd).symm

theorem demo_uses {a d : Nat} (ha : a = 0 ∨ a = 1) (h : Uses demo a d) : d < 4 := by
  have key : ∀ b e, Uses demo b e → b < 4 → e < 4 := by
    intro b e h
    induction h with
    | self b => exact id
    | @ref x y z L f hL hf hmem _ ih =>
      intro hx
      apply ih
      have hx' : x = 0 ∨ x = 1 ∨ x = 2 ∨ x = 3 := by omega
      rcases hx' with rfl | rfl | rfl | rfl
      · injection hL with hL; subst hL
        rcases hf with hf | hf
        · injection hf with hf; subst hf
          simp [Clo.refs] at hmem; omega
        · cases hf
      · injection hL with hL; subst hL
        rcases hf with hf | hf
        · injection hf with hf; subst hf
          simp [Clo.refs] at hmem; omega
        · cases hf
      · cases hL
      · cases hL
  exact key a d h (by omega)

theorem demo_not_uses {a c : Nat} (ha : a = 0 ∨ a = 1) (hc : 4 ≤ c) : ¬ Uses demo a c := fun h => by
  have := demo_uses ha h; omega

theorem demo_callbacks : SameCallbacks demo 0 1 := by
  intro A B hA hB
  injection hA with hA; injection hB with hB
  subst hA; subst hB
  exact ⟨rfl, rfl⟩

/-- The sum, the scaled operator and its violation, the stale product: all hypotheses hold in `demo`. -/
example (hord : ∀ n, Order (ord n) n) :
    (∃ σ', addsub .add demo 0 1 4 = .ok σ' ∧ (∀ d, d ≠ 4 → σ' d = demo d) ∧
      Acts ord σ' false 4 2 2 (fun i j => demoMat [1, 2, 3, 4] i j + demoMat [5, 6, 7, 8] i j)) ∧
    (∃ σ', matmul demo 0 1 4 = .ok σ' ∧ (∀ d, d ≠ 4 → σ' d = demo d) ∧
      Acts ord σ' false 4 2 2 (mulMat 2 (demoMat [1, 2, 3, 4]) (demoMat [5, 6, 7, 8]))) ∧
    (∃ σ', scalarOp .smul demo 0 5 4 = .ok σ' ∧ ∃ n0, ∀ n, n0 ≤ n → ∀ x : List ℚ, x.length = 2 →
      matvec ord n (σ'.set 5 .dead) false 4 x 2 = .ub "dangling reference") ∧
    (∃ σ1 σ2, convertCrs demo 4 6 = .ok σ1 ∧ addsub .add σ1 0 1 4 = .ok σ2 ∧
      Acts ord σ2 false 4 2 2 (fun i j => demoMat [1, 2, 3, 4] i j + demoMat [5, 6, 7, 8] i j) ∧
      MatmulIs ord σ2 4 2 2 (crsAt ⟨2, 2, [0, 1, 2], [1, 0], [3, 5], 2, 2, true⟩)) := by
  have h0 := demo_not_uses (a := 0) (c := 4) (.inl rfl) (by omega)
  have h1 := demo_not_uses (a := 1) (c := 4) (.inr rfl) (by omega)
  refine ⟨C40_add demo_acts.1 demo_acts.2 demo_callbacks rfl rfl rfl h0 h1,
    C40_mul demo_acts.1 demo_acts.2 demo_callbacks rfl rfl rfl h0 h1,
    C61_temporary_scalar_violated .smul (by simp) demo_acts.1 rfl rfl rfl rfl h0
      (demo_not_uses (.inl rfl) (by omega)),
    C61_stale_matmul_violated hord rfl rfl ?_ rfl rfl demo_acts.1 demo_acts.2 demo_callbacks h0 h1⟩
  exact { created := rfl, lenV := rfl, nnz_le := by decide, lenP := rfl, ptr_le := by decide,
          lenC := by decide, col_lt := by decide }

/-- `matadd(A, B, A)` in `demo`. -/
example : ∃ σ', addsub .add demo 0 1 0 = .ok σ' ∧
    ∀ n (x : List ℚ), x.length = 2 → matvec ord n σ' false 0 x 2 = .ub "endless recursion" :=
  C61_inplace_violated (σ := demo) (a := 0) (b := 1) (r := 2) (k := 2) rfl rfl rfl rfl rfl rfl .add (.inl rfl) rfl rfl rfl rfl

end LinOp
end Verif
