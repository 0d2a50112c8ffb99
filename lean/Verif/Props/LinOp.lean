import Verif.Lemmas.LinOp

/-!
# C40: LinearOperator algebra
-/

namespace Verif
namespace LinOp

open Spec

variable {α : Type} [Field α] {ord : Nat → List Nat} {σ : Store α} {tr : Bool}

/-! ## Acting operators -/

theorem acts_of_call {c r k : Nat} {M : Nat → Nat → α} {C : Op α} {f : Clo α} (hC : σ c = .op C)
    (hr : C.rowN = r) (hk : C.colN = k) (hf : C.fn tr = some f)
    (h : ∃ n0, ∀ n, n0 ≤ n → ∀ x : List α, x.length = (if tr then r else k) →
      call ord σ tr n f x = .ok (product tr r k M x)) : Acts ord σ tr c r k M where
  op := ⟨C, hC, hr, hk⟩
  call := by
    obtain ⟨n0, h0⟩ := h
    refine ⟨n0, fun n hn x hx => ?_⟩
    have ho : C.outN tr = if tr then k else r := by cases tr <;> simp [Op.outN, hr, hk]
    have hi : C.inN tr = x.length := by rw [hx]; cases tr <;> simp [Op.inN, hr, hk]
    unfold matvec applyOp
    rw [getOp_ok hC, Res.ok_bind, cassert_decide ho, Res.ok_bind, cassert_decide hi, Res.ok_bind, hf]
    simp only
    rw [h0 n hn x hx, Res.ok_bind, cassert_decide (length_product _ _ _ _ _), Res.ok_bind]

theorem Acts.fn_some {a r k : Nat} {M : Nat → Nat → α} (h : Acts ord σ tr a r k M) {L : Op α}
    (hL : σ a = .op L) : ∃ f, L.fn tr = some f := by
  obtain ⟨n0, h0⟩ := h.call
  have h1 := h0 n0 (Nat.le_refl _) (List.replicate (if tr then r else k) 0) (by simp)
  obtain ⟨L', hL', hr, hk⟩ := h.op
  rw [hL] at hL'
  injection hL' with hL'
  subst hL'
  have ho : L.outN tr = if tr then k else r := by cases tr <;> simp [Op.outN, hr, hk]
  have hi : L.inN tr = (List.replicate (if tr then r else k) (0 : α)).length := by
    cases tr <;> simp [Op.inN, hr, hk]
  unfold matvec applyOp at h1
  rw [getOp_ok hL, Res.ok_bind, cassert_decide ho, Res.ok_bind, cassert_decide hi, Res.ok_bind] at h1
  cases hf : L.fn tr with
  | none => rw [hf] at h1; exact absurd h1 (by simp)
  | some f => exact ⟨f, rfl⟩

/-- an operator that acts as a matrix, with the callback itself -/
theorem Acts.call_fn {a r k : Nat} {M : Nat → Nat → α} (h : Acts ord σ tr a r k M) {L : Op α} {f : Clo α}
    (hL : σ a = .op L) (hf : L.fn tr = some f) :
    ∃ n0, ∀ n, n0 ≤ n → ∀ x : List α, x.length = (if tr then r else k) →
      LinOp.call ord σ tr n f x = Res.ok (product tr r k M x) := by
  obtain ⟨n0, h0⟩ := h.call
  refine ⟨n0, fun n hn x hx => ?_⟩
  have h1 := h0 n hn x hx
  obtain ⟨L', hL', hr, hk⟩ := h.op
  rw [hL] at hL'
  injection hL' with hL'
  subst hL'
  have ho : L.outN tr = if tr then k else r := by cases tr <;> simp [Op.outN, hr, hk]
  have hi : L.inN tr = x.length := by rw [hx]; cases tr <;> simp [Op.inN, hr, hk]
  unfold matvec applyOp at h1
  rw [getOp_ok hL, Res.ok_bind, cassert_decide ho, Res.ok_bind, cassert_decide hi, Res.ok_bind, hf] at h1
  simp only at h1
  obtain ⟨y, hy, h2⟩ := Res.bind_eq_ok.mp h1
  obtain ⟨_, _, h3⟩ := Res.bind_eq_ok.mp h2
  rw [hy, ← h3]

/-- **C40 (sum, at any later time).** Whenever the callback of `C` is the one stored by `matadd(A, B, C)` and
`A` and `B` act as the matrices `M` and `N` *at the time of the call*, `C` acts as `M + N`. -/
theorem C40_add_live {a b c r k : Nat} {M N : Nat → Nat → α} {C : Op α} (hC : σ c = .op C) (hr : C.rowN = r)
    (hk : C.colN = k) (hf : C.fn tr = some (.add a b)) (hA : Acts ord σ tr a r k M)
    (hB : Acts ord σ tr b r k N) : Acts ord σ tr c r k (fun i j => M i j + N i j) := by
  apply acts_of_call hC hr hk hf
  obtain ⟨n1, h1⟩ := hA.call
  obtain ⟨n2, h2⟩ := hB.call
  obtain ⟨L, hL, lr, lk⟩ := hA.op
  refine ⟨max n1 n2 + 1, fun n hn x hx => ?_⟩
  obtain ⟨n, rfl⟩ : ∃ m, n = m + 1 := ⟨n - 1, by omega⟩
  have ho : L.outN tr = if tr then k else r := by cases tr <;> simp [Op.outN, lr, lk]
  have e1 := h1 n (by omega) x hx
  have e2 := h2 n (by omega) x hx
  unfold matvec at e1 e2
  simp only [call, getOp_ok hL, Res.ok_bind, ho, e1, e2]
  congr 1
  cases tr <;> simp only [product, if_true, Bool.false_eq_true, if_false] <;> exact image_add _ _ _ _ _

/-- **C40 (difference, at any later time).** -/
theorem C40_sub_live {a b c r k : Nat} {M N : Nat → Nat → α} {C : Op α} (hC : σ c = .op C) (hr : C.rowN = r)
    (hk : C.colN = k) (hf : C.fn tr = some (.sub a b)) (hA : Acts ord σ tr a r k M)
    (hB : Acts ord σ tr b r k N) : Acts ord σ tr c r k (fun i j => M i j - N i j) := by
  apply acts_of_call hC hr hk hf
  obtain ⟨n1, h1⟩ := hA.call
  obtain ⟨n2, h2⟩ := hB.call
  obtain ⟨L, hL, lr, lk⟩ := hA.op
  refine ⟨max n1 n2 + 1, fun n hn x hx => ?_⟩
  obtain ⟨n, rfl⟩ : ∃ m, n = m + 1 := ⟨n - 1, by omega⟩
  have ho : L.outN tr = if tr then k else r := by cases tr <;> simp [Op.outN, lr, lk]
  have e1 := h1 n (by omega) x hx
  have e2 := h2 n (by omega) x hx
  unfold matvec at e1 e2
  simp only [call, getOp_ok hL, Res.ok_bind, ho, e1, e2]
  congr 1
  cases tr <;> simp only [product, if_true, Bool.false_eq_true, if_false] <;> exact image_sub _ _ _ _ _

/-- **C40 (product, at any later time).** -/
theorem C40_mul_live {a b c r l k : Nat} {M N : Nat → Nat → α} {C : Op α} (hC : σ c = .op C) (hr : C.rowN = r)
    (hk : C.colN = k) (hf : C.fn tr = some (.mul a b)) (hA : Acts ord σ tr a r l M)
    (hB : Acts ord σ tr b l k N) : Acts ord σ tr c r k (mulMat l M N) := by
  apply acts_of_call hC hr hk hf
  obtain ⟨n1, h1⟩ := hA.call
  obtain ⟨n2, h2⟩ := hB.call
  obtain ⟨LA, hLA, ar, ak⟩ := hA.op
  obtain ⟨LB, hLB, br, bk⟩ := hB.op
  refine ⟨max n1 n2 + 1, fun n hn x hx => ?_⟩
  obtain ⟨n, rfl⟩ : ∃ m, n = m + 1 := ⟨n - 1, by omega⟩
  unfold matvec at h1 h2
  cases tr with
  | false =>
    have e2 := h2 n (by omega) x hx
    have e1 := h1 n (by omega) _ (length_product false l k N x)
    simp only [Bool.false_eq_true, if_false] at e1 e2
    simp only [call, getOp_ok hLA, getOp_ok hLB, Res.ok_bind, Bool.false_eq_true, if_false, ar, br, e1, e2]
    congr 1
    simp only [product, Bool.false_eq_true, if_false]
    exact image_mul _ _ _ _ _ _
  | true =>
    have e1 := h1 n (by omega) x hx
    have e2 := h2 n (by omega) _ (length_product true r l M x)
    simp only [if_true] at e1 e2
    simp only [call, getOp_ok hLA, getOp_ok hLB, Res.ok_bind, if_true, ak, bk, e1, e2]
    congr 1
    simp only [product, if_true]
    rw [image_mul]
    apply image_congr
    intro i _
    simp only [mulVec]
    apply Finset.sum_congr rfl
    intro j _
    congr 1
    simp only [mulMat]
    apply Finset.sum_congr rfl
    intro l _
    ring

/-- The result of a scalar operation on the element `m` of a matrix. -/
def scalarFn : Clo α → (α → α → α)
  | .sadd _ _ => fun m s => m + s
  | .ssub _ _ => fun m s => m - s
  | .smul _ _ => fun m s => m * s
  | _ => fun m s => m / s

/-- **C40 (scalars, at any later time).** `add`, `sub`, `mul`, `div` with a scalar act as the matrix with the
operation applied to every element, as long as the scalar object is alive. -/
theorem C40_scalar_live {a s c r k : Nat} {M : Nat → Nat → α} {u : α} {C : Op α} {f : Clo α}
    (hC : σ c = .op C) (hr : C.rowN = r) (hk : C.colN = k) (hf : C.fn tr = some f)
    (hkind : f = .sadd a s ∨ f = .ssub a s ∨ f = .smul a s ∨ f = .sdiv a s) (hA : Acts ord σ tr a r k M)
    (hs : σ s = .scalar u) : Acts ord σ tr c r k (fun i j => scalarFn f (M i j) u) := by
  apply acts_of_call hC hr hk hf
  obtain ⟨n1, h1⟩ := hA.call
  obtain ⟨L, hL, lr, lk⟩ := hA.op
  refine ⟨n1 + 1, fun n hn x hx => ?_⟩
  obtain ⟨n, rfl⟩ : ∃ m, n = m + 1 := ⟨n - 1, by omega⟩
  have ho : L.outN tr = if tr then k else r := by cases tr <;> simp [Op.outN, lr, lk]
  have e1 := h1 n (by omega) x hx
  unfold matvec at e1
  rcases hkind with rfl | rfl | rfl | rfl <;>
    simp only [call, getOp_ok hL, getScalar_ok hs, Res.ok_bind, ho, e1] <;> congr 1 <;>
    cases tr <;> simp only [product, if_true, Bool.false_eq_true, if_false, scalarFn] at hx ⊢
  · exact image_shift _ _ _ _ _ hx
  · exact image_shift _ _ _ _ _ hx
  · exact image_unshift _ _ _ _ _ hx
  · exact image_unshift _ _ _ _ _ hx
  · exact image_scale _ _ _ _ _
  · exact image_scale _ _ _ _ _
  · rw [image_scale]; simp only [div_eq_mul_inv, one_mul]
  · rw [image_scale]; simp only [div_eq_mul_inv, one_mul]

/-! ## The operations -/

/-- Both operators have the same callbacks. -/
def SameCallbacks (σ : Store α) (a b : Nat) : Prop :=
  ∀ A B, σ a = .op A → σ b = .op B → A.mv.isSome = B.mv.isSome ∧ A.rmv.isSome = B.rmv.isSome

theorem setFns_fn {A C : Op α} {f g : Clo α} (h : A.fn tr = some g) : (setFns A C f).fn tr = some f := by
  cases tr
  · have h' : A.mv = some g := h
    simp [setFns, Op.fn, h']
  · have h' : A.rmv = some g := h
    simp [setFns, Op.fn, h']

theorem addsub_ok {a b c r k : Nat} {M N : Nat → Nat → α} (f : Nat → Nat → Clo α)
    (hA : Acts ord σ tr a r k M) (hB : Acts ord σ tr b r k N) (hcb : SameCallbacks σ a b) {C : Op α}
    (hC : σ c = .op C) (hr : C.rowN = r) (hk : C.colN = k) :
    ∃ C', addsub f σ a b c = .ok (σ.set c (.op C')) ∧ C'.rowN = r ∧ C'.colN = k ∧
      C'.fn tr = some (f a b) ∧ C'.mm = C.mm ∧ C'.rmm = C.rmm := by
  obtain ⟨A, hA1, ar, ak⟩ := hA.op
  obtain ⟨B, hB1, br, bk⟩ := hB.op
  obtain ⟨g, hg⟩ := hA.fn_some hA1
  obtain ⟨c1, c2⟩ := hcb A B hA1 hB1
  refine ⟨setFns A C (f a b), ?_, hr, hk, setFns_fn hg, rfl, rfl⟩
  unfold addsub
  rw [getOp_ok hA1, Res.ok_bind, getOp_ok hB1, Res.ok_bind, getOp_ok hC, Res.ok_bind]
  have hs : (sameSize A B && sameSize A C) = true := by simp [sameSize, ar, br, hr]
  rw [hs]
  show (cassert (decide _) >>= _) = _
  rw [cassert_decide c1, Res.ok_bind, cassert_decide c2, Res.ok_bind]

/-- **C40 (sum).** `matadd(A, B, C)` / `vml::add(A, B, C)`: if `A` and `B` act as `M` and `N` and do not
themselves refer to `C`, then `C` acts as `M + N` afterwards, for `matvec` and for `rmatvec`; no other object
changes. -/
theorem C40_add {a b c r k : Nat} {M N : Nat → Nat → α} {C : Op α} (hA : Acts ord σ tr a r k M)
    (hB : Acts ord σ tr b r k N) (hcb : SameCallbacks σ a b) (hC : σ c = .op C) (hr : C.rowN = r)
    (hk : C.colN = k) (ha : ¬ Uses σ a c) (hb : ¬ Uses σ b c) :
    ∃ σ', addsub .add σ a b c = .ok σ' ∧ (∀ d, d ≠ c → σ' d = σ d) ∧
      Acts ord σ' tr c r k (fun i j => M i j + N i j) := by
  obtain ⟨C', h1, h2, h3, h4, -⟩ := addsub_ok (.add) hA hB hcb hC hr hk
  exact ⟨_, h1, fun d hd => set_ne σ _ hd, C40_add_live (set_self _ _ _) h2 h3 h4 (hA.set ha) (hB.set hb)⟩

/-- **C40 (difference).** -/
theorem C40_sub {a b c r k : Nat} {M N : Nat → Nat → α} {C : Op α} (hA : Acts ord σ tr a r k M)
    (hB : Acts ord σ tr b r k N) (hcb : SameCallbacks σ a b) (hC : σ c = .op C) (hr : C.rowN = r)
    (hk : C.colN = k) (ha : ¬ Uses σ a c) (hb : ¬ Uses σ b c) :
    ∃ σ', addsub .sub σ a b c = .ok σ' ∧ (∀ d, d ≠ c → σ' d = σ d) ∧
      Acts ord σ' tr c r k (fun i j => M i j - N i j) := by
  obtain ⟨C', h1, h2, h3, h4, -⟩ := addsub_ok (.sub) hA hB hcb hC hr hk
  exact ⟨_, h1, fun d hd => set_ne σ _ hd, C40_sub_live (set_self _ _ _) h2 h3 h4 (hA.set ha) (hB.set hb)⟩

/-- **C40 (product).** `matmul(A, B, C)` of operators acts as the matrix product. -/
theorem C40_mul {a b c r l k : Nat} {M N : Nat → Nat → α} {C : Op α} (hA : Acts ord σ tr a r l M)
    (hB : Acts ord σ tr b l k N) (hcb : SameCallbacks σ a b) (hC : σ c = .op C) (hr : C.rowN = r)
    (hk : C.colN = k) (ha : ¬ Uses σ a c) (hb : ¬ Uses σ b c) :
    ∃ σ', matmul σ a b c = .ok σ' ∧ (∀ d, d ≠ c → σ' d = σ d) ∧ Acts ord σ' tr c r k (mulMat l M N) := by
  obtain ⟨A, hA1, ar, ak⟩ := hA.op
  obtain ⟨B, hB1, br, bk⟩ := hB.op
  obtain ⟨g, hg⟩ := hA.fn_some hA1
  obtain ⟨c1, c2⟩ := hcb A B hA1 hB1
  refine ⟨σ.set c (.op (setFns A C (.mul a b))), ?_, fun d hd => set_ne σ _ hd,
    C40_mul_live (set_self _ _ _) hr hk (setFns_fn hg) (hA.set ha) (hB.set hb)⟩
  unfold matmul
  rw [getOp_ok hA1, Res.ok_bind, getOp_ok hB1, Res.ok_bind, getOp_ok hC, Res.ok_bind,
    cassert_decide (by rw [ak, br]), Res.ok_bind, cassert_decide (by rw [ar, hr]), Res.ok_bind,
    cassert_decide (by rw [bk, hk]), Res.ok_bind, cassert_decide c1, Res.ok_bind, cassert_decide c2, Res.ok_bind]

theorem scalarOp_ok {a s c r k : Nat} {M : Nat → Nat → α} {u : α} {C : Op α} (f : Nat → Nat → Clo α)
    (hA : Acts ord σ tr a r k M) (hs : σ s = .scalar u) (hC : σ c = .op C) (hr : C.rowN = r)
    (hk : C.colN = k) :
    ∃ C', scalarOp f σ a s c = .ok (σ.set c (.op C')) ∧ C'.rowN = r ∧ C'.colN = k ∧ C'.fn tr = some (f a s) := by
  obtain ⟨A, hA1, ar, ak⟩ := hA.op
  obtain ⟨g, hg⟩ := hA.fn_some hA1
  refine ⟨setFns A C (f a s), ?_, hr, hk, setFns_fn hg⟩
  unfold scalarOp
  rw [getOp_ok hA1, Res.ok_bind, getScalar_ok hs, Res.ok_bind, getOp_ok hC, Res.ok_bind]
  have h1 : sameSize A C = true := by simp [sameSize, ar, hr]
  rw [h1]
  rfl

/-- **C40 (scalars).** `vml::add/sub/mul/div(A, alpha, C)` with a scalar object that stays alive. -/
theorem C40_scalar {a s c r k : Nat} {M : Nat → Nat → α} {u : α} {C : Op α} (f : Nat → Nat → Clo α)
    (hkind : f = .sadd ∨ f = .ssub ∨ f = .smul ∨ f = .sdiv) (hA : Acts ord σ tr a r k M)
    (hs : σ s = .scalar u) (hC : σ c = .op C) (hr : C.rowN = r) (hk : C.colN = k) (ha : ¬ Uses σ a c) :
    ∃ σ', scalarOp f σ a s c = .ok σ' ∧ (∀ d, d ≠ c → σ' d = σ d) ∧
      Acts ord σ' tr c r k (fun i j => scalarFn (f a s) (M i j) u) := by
  obtain ⟨C', h1, h2, h3, h4⟩ := scalarOp_ok f hA hs hC hr hk
  have hsc : s ≠ c := by intro h; subst h; rw [hs] at hC; exact absurd hC (by simp)
  refine ⟨_, h1, fun d hd => set_ne σ _ hd, C40_scalar_live (set_self _ _ _) h2 h3 h4 ?_ (hA.set ha)
    (by rw [set_ne σ _ hsc]; exact hs)⟩
  rcases hkind with rfl | rfl | rfl | rfl <;> simp

/-! ## Conversions -/

/-- **C40 (from CRS).** An operator converted from a CRS matrix acts as that matrix. -/
theorem C40_convert_crs (hord : ∀ n, Order (ord n) n) {l m : Nat} {L : Op α} {A : Crs α} (hL : σ l = .op L)
    (hm : σ m = .crs A) (hA : A.Safe) :
    ∃ σ', convertCrs σ l m = .ok σ' ∧ (∀ d, d ≠ l → σ' d = σ d) ∧
      Acts ord σ' false l A.rowN A.colN (crsAt A) := by
  have hml : m ≠ l := by intro h; subst h; rw [hL] at hm; exact absurd hm (by simp)
  refine ⟨_, by simp only [convertCrs, getOp_ok hL, getCrs, hm, Res.ok_bind]; rfl, fun d hd => set_ne σ _ hd, ?_⟩
  refine acts_of_call (set_self _ _ _) rfl rfl rfl ⟨1, fun n hn x hx => ?_⟩
  obtain ⟨n, rfl⟩ : ∃ m, n = m + 1 := ⟨n - 1, by omega⟩
  simp only [call, getOp, set_self, getCrs, set_ne σ _ hml, hm, Res.ok_bind]
  exact crs_mv A hA _ _ (hord _) x hx

/-- **C40 (from Dense).** -/
theorem C40_convert_dense {l m : Nat} {L : Op α} {A : Dense α} {f : Nat → Nat → α}
    (hL : σ l = .op L) (hm : σ m = .dense A) (hA : A.WF) (hf : A.Reads f) :
    ∃ σ', convertDense σ l m = .ok σ' ∧ (∀ d, d ≠ l → σ' d = σ d) ∧ Acts ord σ' false l A.rowN A.colN f := by
  have hml : m ≠ l := by intro h; subst h; rw [hL] at hm; exact absurd hm (by simp)
  refine ⟨_, by simp only [convertDense, getOp_ok hL, getDense, hm, Res.ok_bind]; rfl,
    fun d hd => set_ne σ _ hd, ?_⟩
  refine acts_of_call (set_self _ _ _) rfl rfl rfl ⟨1, fun n hn x hx => ?_⟩
  obtain ⟨n, rfl⟩ : ∃ m, n = m + 1 := ⟨n - 1, by omega⟩
  simp only [call, getOp, set_self, getDense, set_ne σ _ hml, hm, Res.ok_bind]
  exact dense_mv A hA _ f hf x hx

/-- **C40 (from COO).** For a COO matrix sorted by rows (repeated positions add up). -/
theorem C40_convert_coo (hord : ∀ n, Order (ord n) n) {l m : Nat} {L : Op α} {A : Coo α} (hL : σ l = .op L)
    (hm : σ m = .coo A) (hA : A.WF) (hin : Within A.rowN A.colN A.entries) (hs : SortedRows A.entries) :
    ∃ σ', convertCoo σ l m = .ok σ' ∧ (∀ d, d ≠ l → σ' d = σ d) ∧
      Acts ord σ' false l A.rowN A.colN (sumAt A.entries) := by
  have hml : m ≠ l := by intro h; subst h; rw [hL] at hm; exact absurd hm (by simp)
  refine ⟨_, by simp only [convertCoo, getOp_ok hL, getCoo, hm, Res.ok_bind]; rfl,
    fun d hd => set_ne σ _ hd, ?_⟩
  refine acts_of_call (set_self _ _ _) rfl rfl rfl ⟨1, fun n hn x hx => ?_⟩
  obtain ⟨n, rfl⟩ : ∃ m, n = m + 1 := ⟨n - 1, by omega⟩
  obtain ⟨B, h1, h2, h3, -, h5, -, h7⟩ := C06_convert_rows A hA hin hs
  simp only [call, getCoo, set_ne σ _ hml, hm, Res.ok_bind, h1]
  have h8 := crs_mv B h5.toSafe _ (ord B.rowN) (hord _) x (by rw [h3]; exact hx)
  rw [h8, h2, h3]
  show Res.ok (image _ _ (fun i j => sumAt B.entries i j) x) = _
  rw [h7]
  rfl

/-! ## Copies -/

theorem copy_ok {a c r k : Nat} {M : Nat → Nat → α} (hA : Acts ord σ tr a r k M) (ha : ¬ Uses σ a c) :
    ∃ C', copy σ a c = .ok (σ.set c (.op C')) ∧ C'.mm = none ∧ C'.rmm = none ∧
      Acts ord (σ.set c (.op C')) tr c r k M := by
  obtain ⟨A, hA1, ar, ak⟩ := hA.op
  obtain ⟨g, hg⟩ := hA.fn_some hA1
  refine ⟨⟨A.rowN, A.colN, A.mv, A.rmv, none, none⟩, by simp [copy, getOp_ok hA1], rfl, rfl, ?_⟩
  have hset := hA.set (x := .op ⟨A.rowN, A.colN, A.mv, A.rmv, none, none⟩) ha
  have hac : a ≠ c := fun h => ha (h ▸ .self a)
  have hA2 : (σ.set c (.op ⟨A.rowN, A.colN, A.mv, A.rmv, none, none⟩)) a = .op A := by
    rw [set_ne σ _ hac]; exact hA1
  exact acts_of_call (set_self _ _ _) ar ak (by simpa [Op.fn] using hg) (hset.call_fn hA2 hg)

/-- **C40 (copy).** A copy of an operator acts like the original, for `matvec` and `rmatvec`, as long as the
original stays alive. -/
theorem C40_copy {a c r k : Nat} {M : Nat → Nat → α} (hA : Acts ord σ tr a r k M) (ha : ¬ Uses σ a c) :
    ∃ σ', copy σ a c = .ok σ' ∧ (∀ d, d ≠ c → σ' d = σ d) ∧ Acts ord σ' tr c r k M := by
  obtain ⟨C', h1, -, -, h4⟩ := copy_ok hA ha
  exact ⟨_, h1, fun d hd => set_ne σ _ hd, h4⟩

/-- **C40 (assignment).** After `C = A`, `C` acts like `A` for each of `matvec`, `rmatvec` that `A` has. -/
theorem C40_assign {a c r k : Nat} {M : Nat → Nat → α} {C : Op α} (hA : Acts ord σ tr a r k M)
    (hC : σ c = .op C) (ha : ¬ Uses σ a c) :
    ∃ σ', assign σ a c = .ok σ' ∧ (∀ d, d ≠ c → σ' d = σ d) ∧ Acts ord σ' tr c r k M := by
  obtain ⟨A, hA1, ar, ak⟩ := hA.op
  obtain ⟨g, hg⟩ := hA.fn_some hA1
  refine ⟨_, by simp only [assign, getOp_ok hA1, getOp_ok hC, Res.ok_bind]; rfl, fun d hd => set_ne σ _ hd, ?_⟩
  have hac : a ≠ c := fun h => ha (h ▸ .self a)
  refine acts_of_call (set_self _ _ _) ar ak (f := g) ?_ ((hA.set ha).call_fn (L := A) ?_ hg)
  · cases tr
    · have h' : A.mv = some g := hg
      simp [Op.fn, h']
    · have h' : A.rmv = some g := hg
      simp [Op.fn, h']
  · rw [set_ne σ _ hac]; exact hA1

end LinOp
end Verif
