import Verif.Spec.ReductionSpec
import Verif.Lemmas.Product
import Verif.Lemmas.Tensor
import Verif.Props.Reduce

/-!
C88: every public overload of the reductions computes what its name promises.
-/

namespace Verif.Reduction

open Spec Dispatch Product

variable {α : Type}

/-- the core a function is expected to call, from its parameters -/
def expected : Fn → List Par → Option (Core × Option Ty)
  | .sum, [q] => if parKind q = .vec then some (.sum, none) else none
  | .asum, [q] => if parKind q = .vec then some (.asum, none) else none
  | .nrm1, [q] => if parKind q = .vec then some (.nrm1, none) else none
  | .nrm2, [q] => if parKind q = .vec then some (.nrm2, none) else none
  | .dot, [q, r] => if parKind q = .vec ∧ parKind r = .vec then some (.dot, none) else none
  | .max, [.obj ty p c] => match parKind (.obj ty p c) with
    | .vec => some (.vmax, some ty)
    | .mat => some (.mmax, some ty)
    | .crs => some (.mmax, some ty)
    | .ten => some (.tmax, some ty)
    | .tcrs => some (.tmax, some ty)
    | .scal => none
  | .min, [.obj ty p c] => match parKind (.obj ty p c) with
    | .vec => some (.vmin, some ty)
    | .mat => some (.mmin, some ty)
    | .crs => some (.mmin, some ty)
    | .ten => some (.tmin, some ty)
    | .tcrs => some (.tmin, some ty)
    | .scal => none
  | _, _ => none

/-- `return ?_core(args)` with the expected core, template parameter, precision and arguments -/
def coreOk (o : Overload) : Bool :=
  match o.body with
  | .core c p tmpl ks =>
    decide (ks = List.range o.pars.length) && decide (expected o.fn o.pars = some (c, tmpl)) &&
      o.pars.all (fun q => decide (parPrec q = p)) && decide (o.ret = some p)
  | .call _ _ => false

def rowOk (o : Overload) : Bool :=
  match o.body with
  | .core _ _ _ _ => coreOk o
  | .call f ks =>
    decide (f = o.fn) && decide (ks = List.range o.pars.length) &&
      decide (o.pars.length = 1 ∨ o.pars.length = 2) &&
      match reductions.find? (fun o' => decide (o'.fn = f) && decide (o'.pars = o.pars) && o'.ret.isSome) with
      | some o' => decide (o'.ret = o.ans) && coreOk o'
      | none => false

theorem rowOk_all : reductions.all rowOk = true := by decide +kernel

theorem expected_len {f : Fn} {ps : List Par} {c : Core × Option Ty} (h : expected f ps = some c) :
    ps.length = 1 ∨ ps.length = 2 := by
  unfold expected at h
  split at h <;> first | (cases h; done) | (left; rfl) | (right; rfl)

theorem pick_range {β : Type} {l : List β} (h : l.length = 1 ∨ l.length = 2) :
    pick l (List.range l.length) = some l := by
  rcases l with _ | ⟨a, _ | ⟨b, _ | ⟨c, l⟩⟩⟩
  · simp at h
  · rfl
  · rfl
  · simp at h

/-- the template parameter is the class of the argument -/
theorem expected_tmpl {f : Fn} {ps : List Par} {c : Core} {ty : Ty} (h : expected f ps = some (c, some ty)) :
    ∃ p k, ps = [.obj ty p k] := by
  unfold expected at h
  split at h
  all_goals first
    | (split at h <;> simp at h; done)
    | skip
  · split at h <;> simp at h <;> exact ⟨_, _, by rw [h.2]⟩
  · split at h <;> simp at h <;> exact ⟨_, _, by rw [h.2]⟩
  · cases h

section
variable [Zero α] [Add α] [Mul α] [LT α] [DecidableLT α]

theorem runCore_eq (E : Env α) {o : Overload} (h : coreOk o = true) {vs : List (Val α)}
    (hl : vs.length = o.pars.length) :
    ∃ c tmpl, expected o.fn o.pars = some (c, tmpl) ∧ runCore E o vs = c.exec E tmpl vs := by
  unfold coreOk at h
  rcases hb : o.body with ⟨c, p, tmpl, ks⟩ | ⟨f, ks⟩
  · rw [hb] at h
    simp only [Bool.and_eq_true, decide_eq_true_eq] at h
    obtain ⟨⟨⟨h1, h2⟩, h3⟩, h4⟩ := h
    refine ⟨c, tmpl, h2, ?_⟩
    have hlen := expected_len h2
    unfold runCore
    rw [hb]
    dsimp only
    rw [h1, pick_range hlen, ← hl, pick_range (by rw [hl]; exact hlen)]
    dsimp only
    rw [if_pos]
    rw [h3, h4]
    simp only [decide_true, Bool.and_true, Bool.true_and]
    rcases tmpl with _ | ty
    · rfl
    · obtain ⟨p', k, hp⟩ := expected_tmpl h2
      rw [hp]
      simp
  · rw [hb] at h; cases h

theorem run_eq (E : Env α) {o : Overload} (ho : o ∈ reductions) {vs : List (Val α)}
    (hf : List.Forall₂ Fits o.pars vs) :
    ∃ c tmpl, expected o.fn o.pars = some (c, tmpl) ∧ o.run reductions E vs = c.exec E tmpl vs := by
  have h := List.all_eq_true.mp rowOk_all o ho
  have hl : vs.length = o.pars.length := hf.length_eq.symm
  unfold rowOk at h
  rcases hb : o.body with ⟨c, p, tmpl, ks⟩ | ⟨f, ks⟩
  · rw [hb] at h
    obtain ⟨c', t', h1, h2⟩ := runCore_eq E h hl
    refine ⟨c', t', h1, ?_⟩
    unfold Overload.run
    rw [hb]
    exact h2
  · rw [hb] at h
    simp only [Bool.and_eq_true, decide_eq_true_eq] at h
    obtain ⟨⟨⟨rfl, h2⟩, h3⟩, h4⟩ := h
    have e1 : pick vs ks = some vs := by rw [h2, ← hl]; exact pick_range (by rw [hl]; exact h3)
    have e2 : pick o.pars ks = some o.pars := by rw [h2]; exact pick_range h3
    rcases hr : reductions.find? (fun o' => decide (o'.fn = o.fn) && decide (o'.pars = o.pars) && o'.ret.isSome)
      with _ | o'
    · rw [hr] at h4; cases h4
    · rw [hr] at h4
      simp only [Bool.and_eq_true, decide_eq_true_eq] at h4
      have hp := List.find?_some hr
      simp only [Bool.and_eq_true, decide_eq_true_eq] at hp
      obtain ⟨⟨p1, p2⟩, p3⟩ := hp
      obtain ⟨c', t', g1, g2⟩ := runCore_eq E h4.2 (vs := vs) (by rw [p2]; exact hl)
      refine ⟨c', t', by rw [← p1, ← p2]; exact g1, ?_⟩
      unfold Overload.run
      rw [hb]
      dsimp only
      rw [e1, e2]
      dsimp only
      rw [hr]
      dsimp only
      rw [if_pos (by simpa using h4.1)]
      exact g2

end

/-- a vector argument -/
theorem vec_of {q : Par} {x : Val α} (hq : parKind q = .vec) (h : Fits q x) : ∃ w, x = .vec w := by
  have := kind_of_fits h
  rw [hq] at this
  cases x <;> first | (cases this; done) | exact ⟨_, rfl⟩

theorem Stores.vec {w : Win α} {n : Nat} {f : Nat → α} (h : Stores (.vec w) n f) :
    w.size = n ∧ ∀ i, i < n → w.buf[w.off + i]? = some (f i) := by
  obtain ⟨-, h2, h3⟩ := h
  refine ⟨h2, fun i hi => ?_⟩
  have := h3 i hi
  unfold Win.get at this
  rwa [rd_eq_ok] at this

section
variable [LT α] [DecidableLT α]

theorem one_vec [Zero α] [Add α] [Mul α] (E : Env α) {o : Overload} (ho : o ∈ reductions) {x : Val α}
    (hf : List.Forall₂ Fits o.pars [x]) {f : Fn} (hfn : o.fn = f) {c : Core}
    (hexp : ∀ q, expected f [q] = if parKind q = .vec then some (c, none) else none) :
    ∃ w, x = .vec w ∧ o.run reductions E [x] = c.exec E none [.vec w] := by
  obtain ⟨c', t', h1, h2⟩ := run_eq E ho hf
  rcases hp : o.pars with _ | ⟨q, _ | ⟨r, l⟩⟩
  · rw [hp] at hf; cases hf
  · rw [hp] at hf h1
    rw [hfn, hexp] at h1
    split at h1
    · next hq =>
      cases h1
      cases hf with
      | cons hx _ =>
        obtain ⟨w, rfl⟩ := vec_of hq hx
        exact ⟨w, rfl, h2⟩
    · cases h1
  · rw [hp] at hf
    cases hf with
    | cons _ h => cases h

/-- **C88 (sum).** Every overload of `sum`, returning the result or leaving it in `ans`, gives the sum of the
elements, for every execution of the parallel reduction. -/
theorem C88_sum [Semiring α] (E : Env α) {o : Overload} (ho : o ∈ reductions) (hfn : o.fn = .sum)
    {x : Val α} (hf : List.Forall₂ Fits o.pars [x]) {n : Nat} {f : Nat → α} (hx : Stores x n f)
    (ht : E.t.Legal n) : o.run reductions E [x] = .ok (∑ i ∈ Finset.range n, f i) := by
  obtain ⟨w, rfl, h⟩ := one_vec E ho hf hfn (c := .sum) (fun _ => rfl)
  rw [h]
  exact C25_sum E.t n ht w.buf w.off f hx.vec.2

/-- **C88 (asum, nrm1).** The sum of the absolute values. -/
theorem C88_abs [Semiring α] (E : Env α) {o : Overload} (ho : o ∈ reductions)
    (hfn : o.fn = .asum ∨ o.fn = .nrm1) {x : Val α} (hf : List.Forall₂ Fits o.pars [x]) {n : Nat} {f : Nat → α}
    (hx : Stores x n f) (ht : E.t.Legal n) :
    o.run reductions E [x] = .ok (∑ i ∈ Finset.range n, E.absf (f i)) := by
  rcases hfn with hfn | hfn
  · obtain ⟨w, rfl, h⟩ := one_vec E ho hf hfn (c := .asum) (fun _ => rfl)
    rw [h]
    exact C25_nrm1 E.absf E.t n ht w.buf w.off f hx.vec.2
  · obtain ⟨w, rfl, h⟩ := one_vec E ho hf hfn (c := .nrm1) (fun _ => rfl)
    rw [h]
    exact C25_nrm1 E.absf E.t n ht w.buf w.off f hx.vec.2

/-- **C88 (nrm2).** The square root of the sum of the squares. -/
theorem C88_nrm2 [Semiring α] (E : Env α) {o : Overload} (ho : o ∈ reductions) (hfn : o.fn = .nrm2)
    {x : Val α} (hf : List.Forall₂ Fits o.pars [x]) {n : Nat} {f : Nat → α} (hx : Stores x n f)
    (ht : E.t.Legal n) : o.run reductions E [x] = .ok (E.sqrtf (∑ i ∈ Finset.range n, f i * f i)) := by
  obtain ⟨w, rfl, h⟩ := one_vec E ho hf hfn (c := .nrm2) (fun _ => rfl)
  rw [h]
  have := C25_nrm2 E.sqrtf E.t n ht w.buf w.off f hx.vec.2
  show nrm2Core E.sqrtf E.t w.buf w.off w.size = _
  rw [hx.vec.1]
  exact this

theorem two_vec [Zero α] [Add α] [Mul α] (E : Env α) {o : Overload} (ho : o ∈ reductions) {x y : Val α}
    (hf : List.Forall₂ Fits o.pars [x, y]) (hfn : o.fn = .dot) :
    ∃ w v, x = .vec w ∧ y = .vec v ∧
      o.run reductions E [x, y] = dotCore E.t w.buf w.off w.size v.buf v.off v.size := by
  obtain ⟨c', t', h1, h2⟩ := run_eq E ho hf
  rcases hp : o.pars with _ | ⟨q, _ | ⟨r, _ | ⟨s, l⟩⟩⟩
  · rw [hp] at hf; cases hf
  · rw [hp] at hf
    cases hf with
    | cons _ h => cases h
  · rw [hp] at hf h1
    rw [hfn] at h1
    unfold expected at h1
    simp only at h1
    split at h1
    · next hq =>
      cases h1
      cases hf with
      | cons hx hr =>
        cases hr with
        | cons hy _ =>
          obtain ⟨w, rfl⟩ := vec_of hq.1 hx
          obtain ⟨v, rfl⟩ := vec_of hq.2 hy
          exact ⟨w, v, rfl, rfl, h2⟩
    · cases h1
  · rw [hp] at hf
    cases hf with
    | cons _ h =>
      cases h with
      | cons _ h => cases h

/-- **C88 (dot).** The inner product, for every pair of storage classes. -/
theorem C88_dot [Semiring α] (E : Env α) {o : Overload} (ho : o ∈ reductions) (hfn : o.fn = .dot)
    {x y : Val α} (hf : List.Forall₂ Fits o.pars [x, y]) {n : Nat} {f g : Nat → α} (hx : Stores x n f)
    (hy : Stores y n g) (ht : E.t.Legal n) :
    o.run reductions E [x, y] = .ok (∑ i ∈ Finset.range n, f i * g i) := by
  obtain ⟨w, v, rfl, rfl, h⟩ := two_vec E ho hf hfn
  rw [h, hx.vec.1, hy.vec.1]
  exact C25_dot E.t n ht w.buf v.buf w.off v.off f g hx.vec.2 hy.vec.2

/-- **C88 (dot of different lengths).** The program stops with a failed assertion. -/
theorem C88_dot_sizes [Semiring α] (E : Env α) {o : Overload} (ho : o ∈ reductions) (hfn : o.fn = .dot)
    {x y : Val α} (hf : List.Forall₂ Fits o.pars [x, y]) {n m : Nat} {f g : Nat → α} (hx : Stores x n f)
    (hy : Stores y m g) (hnm : n ≠ m) : ∃ msg, o.run reductions E [x, y] = .abort msg := by
  obtain ⟨w, v, rfl, rfl, h⟩ := two_vec E ho hf hfn
  rw [h, hx.vec.1, hy.vec.1]
  exact ⟨_, C25_dot_sizes E.t w.buf v.buf w.off n v.off m hnm⟩

end

/-! ### max and min -/

theorem Stores.store {x : Val α} {n : Nat} {f : Nat → α} (h : Stores x n f) :
    ∃ b o, store x = some (b, o) ∧ ∀ i, i < n → b[o + i]? = some (f i) := by
  cases x with
  | vec w => exact ⟨_, _, rfl, h.vec.2⟩
  | mat D =>
    obtain ⟨h1, h2, h3⟩ := h
    refine ⟨_, _, rfl, fun i hi => ?_⟩
    obtain ⟨d1, d2, d3⟩ := idx_decomp (n := i) (M := D.rowN) (N := D.colN) (by omega)
    have := h3 _ _ d1 d2
    rwa [d3, Dense.at_eq_rd h1 d1 d2, d3, rd_eq_ok] at this
  | ten T =>
    obtain ⟨h1, h2, h3⟩ := h
    refine ⟨_, _, rfl, fun i hi => ?_⟩
    obtain ⟨d1, d2⟩ := TDense.posOf_ok (shape := T.shape) (k := i) (by omega)
    have := h3 _ d1
    rwa [d2, TDense.at_ok h1 d1, d2, rd_eq_ok] at this
  | crs A =>
    obtain ⟨-, -, h3⟩ := h
    exact ⟨_, _, rfl, fun i hi => by rw [Nat.zero_add]; exact h3 i hi⟩
  | tcrs T => exact ⟨_, _, rfl, h.2.2⟩
  | _ => exact h.elim

/-- the code compares the exact class of the argument with `Dense` -/
theorem expected_max {q : Par} {c : Core} {t : Option Ty} (h : expected .max [q] = some (c, t)) {β : Type}
    {x : Val β} (hx : Fits q x) [Zero β] [Add β] [Mul β] [LT β] [DecidableLT β] (E : Env β) {b : List β} {o : Nat}
    (hs : store x = some (b, o)) :
    (owning q ∧ (c.exec E t [x] = vmaxRed E.lo E.t b o ∨ c.exec E t [x] = mmaxCore E.lo true E.t b o)) ∨
    (¬ owning q ∧ c.exec E t [x] = mmaxCore E.lo false E.t b o) := by
  rcases q with ⟨ty, p, k⟩ | p
  · cases ty <;> cases x <;> first | (exact hx.elim) | skip
    all_goals (cases h; simp [owning, Core.exec] <;> simp [store] at hs <;> simp [hs, store])
  · cases h

theorem expected_min {q : Par} {c : Core} {t : Option Ty} (h : expected .min [q] = some (c, t)) {β : Type}
    {x : Val β} (hx : Fits q x) [Zero β] [Add β] [Mul β] [LT β] [DecidableLT β] (E : Env β) {b : List β} {o : Nat}
    (hs : store x = some (b, o)) :
    (owning q ∧ (c.exec E t [x] = vminRed E.hi E.t b o ∨ c.exec E t [x] = mminCore E.hi true E.t b o)) ∨
    (¬ owning q ∧ c.exec E t [x] = mminCore E.hi false E.t b o) := by
  rcases q with ⟨ty, p, k⟩ | p
  · cases ty <;> cases x <;> first | (exact hx.elim) | skip
    all_goals (cases h; simp [owning, Core.exec] <;> simp [store] at hs <;> simp [hs, store])
  · cases h

section
variable [LinearOrder α] [Semiring α]

/-- **C88 (max).** Every overload of `vml::max` for a vector, a view of one, a dense matrix or a dense tensor
returns an element of it that no element exceeds. -/
theorem C88_max (E : Env α) {o : Overload} (ho : o ∈ reductions) (hfn : o.fn = .max) {q : Par}
    (hp : o.pars = [q]) (how : owning q) {x : Val α} (hf : Fits q x) {n : Nat} {f : Nat → α} (hx : Stores x n f)
    (hn : 0 < n) (hlo : ∀ i, i < n → E.lo ≤ f i) (ht : E.t.Legal n) :
    ∃ m, o.run reductions E [x] = .ok m ∧ (∃ i, i < n ∧ m = f i) ∧ ∀ i, i < n → f i ≤ m := by
  obtain ⟨c, t, h1, h2⟩ := run_eq E ho (vs := [x]) (by rw [hp]; exact .cons hf .nil)
  obtain ⟨b, k, hs, hb⟩ := hx.store
  obtain ⟨m, hm, h3⟩ := C25_max E.lo E.t n hn ht b k f hb hlo
  rw [hfn, hp] at h1
  refine ⟨m, ?_, h3⟩
  rw [h2]
  rcases expected_max h1 hf E hs with ⟨-, h | h⟩ | ⟨h, -⟩
  · rw [h, hm]
  · rw [h]; unfold mmaxCore; rw [hm]; rfl
  · exact (h how).elim

/-- **C88 (min).** -/
theorem C88_min (E : Env α) {o : Overload} (ho : o ∈ reductions) (hfn : o.fn = .min) {q : Par}
    (hp : o.pars = [q]) (how : owning q) {x : Val α} (hf : Fits q x) {n : Nat} {f : Nat → α} (hx : Stores x n f)
    (hn : 0 < n) (hhi : ∀ i, i < n → f i ≤ E.hi) (ht : E.t.Legal n) :
    ∃ m, o.run reductions E [x] = .ok m ∧ (∃ i, i < n ∧ m = f i) ∧ ∀ i, i < n → m ≤ f i := by
  obtain ⟨c, t, h1, h2⟩ := run_eq E ho (vs := [x]) (by rw [hp]; exact .cons hf .nil)
  obtain ⟨b, k, hs, hb⟩ := hx.store
  obtain ⟨m, hm, h3⟩ := C25_min E.hi E.t n hn ht b k f hb hhi
  rw [hfn, hp] at h1
  refine ⟨m, ?_, h3⟩
  rw [h2]
  rcases expected_min h1 hf E hs with ⟨-, h | h⟩ | ⟨h, -⟩
  · rw [h, hm]
  · rw [h]; unfold mminCore; rw [hm]; rfl
  · exact (h how).elim

/-- **C88 (max and min of views and sparse objects, what the code does).** For the views of matrices and tensors
and the sparse classes the result is the greatest (least) of the stored elements and 0. -/
theorem C88_clamped_partial (E : Env α) {o : Overload} (ho : o ∈ reductions) {q : Par}
    (hp : o.pars = [q]) (how : ¬ owning q) {x : Val α} (hf : Fits q x) {n : Nat} {f : Nat → α} (hx : Stores x n f)
    (hn : 0 < n) (hlo : ∀ i, i < n → E.lo ≤ f i) (hhi : ∀ i, i < n → f i ≤ E.hi) (ht : E.t.Legal n) :
    (o.fn = .max → ∃ m, o.run reductions E [x] = .ok (max m 0) ∧ (∃ i, i < n ∧ m = f i) ∧ ∀ i, i < n → f i ≤ m) ∧
    (o.fn = .min → ∃ m, o.run reductions E [x] = .ok (min m 0) ∧ (∃ i, i < n ∧ m = f i) ∧ ∀ i, i < n → m ≤ f i) := by
  obtain ⟨c, t, h1, h2⟩ := run_eq E ho (vs := [x]) (by rw [hp]; exact .cons hf .nil)
  obtain ⟨b, k, hs, hb⟩ := hx.store
  refine ⟨fun hfn => ?_, fun hfn => ?_⟩
  · obtain ⟨m, hm, h3⟩ := C25_max E.lo E.t n hn ht b k f hb hlo
    rw [hfn, hp] at h1
    refine ⟨m, ?_, h3⟩
    rw [h2]
    rcases expected_max h1 hf E hs with ⟨h, -⟩ | ⟨-, h⟩
    · exact (how h).elim
    · rw [h]; unfold mmaxCore; rw [hm, Res.ok_bind, stdMax_eq]; rfl
  · obtain ⟨m, hm, h3⟩ := C25_min E.hi E.t n hn ht b k f hb hhi
    rw [hfn, hp] at h1
    refine ⟨m, ?_, h3⟩
    rw [h2]
    rcases expected_min h1 hf E hs with ⟨h, -⟩ | ⟨-, h⟩
    · exact (how h).elim
    · rw [h]; unfold mminCore; rw [hm, Res.ok_bind]
      rw [show stdMin m 0 = min m 0 by
        unfold stdMin
        split
        · next h => exact (min_eq_right h.le).symm
        · next h => exact (min_eq_left (not_lt.mp h)).symm]
      rfl

end

/-- the vector classes, dense and sparse classes of a precision -/
def vecPars (p : Prec) : List Par :=
  [.obj .vector p true, .obj (.view1D .vec) p true, .obj (.view1D .mat) p true, .obj (.view1D .ten) p true]

def otherPars (p : Prec) : List Par :=
  [.obj .dense p true, .obj (.viewDense .vec) p true, .obj (.viewDense .mat) p true, .obj (.viewDense .ten) p true,
   .obj .crs p true, .obj .tdense p true, .obj (.viewTDense .vec) p true, .obj (.viewTDense .mat) p true,
   .obj (.viewTDense .ten) p true, .obj .tcrs p true]

/-- **C88 (completeness).** In both precisions the vector reductions exist for every vector class (`dot`: every
pair), in the form returning the result and in the form with `ans`; `max` and `min` for all classes. -/
theorem C88_complete (p : Prec) :
    (∀ f ∈ [Fn.sum, Fn.asum, Fn.nrm1, Fn.nrm2], ∀ q ∈ vecPars p,
      (∃ o ∈ reductions, o.fn = f ∧ o.pars = [q] ∧ o.ret = some p ∧ o.ans = none) ∧
      ∃ o ∈ reductions, o.fn = f ∧ o.pars = [q] ∧ o.ret = none ∧ o.ans = some p) ∧
    (∀ q ∈ vecPars p, ∀ r ∈ vecPars p,
      (∃ o ∈ reductions, o.fn = .dot ∧ o.pars = [q, r] ∧ o.ret = some p ∧ o.ans = none) ∧
      ∃ o ∈ reductions, o.fn = .dot ∧ o.pars = [q, r] ∧ o.ret = none ∧ o.ans = some p) ∧
    (∀ f ∈ [Fn.max, Fn.min], ∀ q ∈ vecPars p ++ otherPars p,
      ∃ o ∈ reductions, o.fn = f ∧ o.pars = [q] ∧ o.ret = some p ∧ o.ans = none) := by
  cases p <;> decide +kernel

/-- **C88 (violation).** The `max` overload for views of a dense matrix returns 0 for the 1 x 2 view holding -3 and
-5: not an element. -/
theorem C88_max_violated : ∃ (E : Env Int) (o : Overload) (x : Val Int) (f : Nat → Int), o ∈ reductions ∧ o.fn = .max ∧
    List.Forall₂ Fits o.pars [x] ∧ Stores x 2 f ∧ E.t.Legal 2 ∧ (∀ i, i < 2 → E.lo ≤ f i) ∧
    o.run reductions E [x] = .ok 0 ∧ ∀ i, i < 2 → f i ≠ 0 := by
  refine ⟨⟨.node (.thread [1]) (.thread [0]), abs, id, -1000, 1000⟩,
    ⟨.max, [.obj (.viewDense .mat) .d true], some .d, none, .core .mmax .d (some (.viewDense .mat)) [0]⟩,
    .mat ⟨1, 2, [7, -3, -5, 8], 2, 4, 1, true⟩, fun i => if i = 0 then -3 else -5, ?_, rfl, .cons trivial .nil,
    ?_, by unfold RTree.Legal; decide, by decide, ?_, by decide⟩
  · decide +kernel
  · refine ⟨?_, rfl, ?_⟩
    · constructor <;> decide
    · have : ∀ i, i < 1 → ∀ j, j < 2 → Dense.at_ (⟨1, 2, [7, -3, -5, 8], 2, 4, 1, true⟩ : Dense Int) i j =
        .ok (if 2 * i + j = 0 then -3 else -5) := by decide
      exact fun i j hi hj => this i hi j hj
  · decide +kernel

/-- the hypotheses are satisfiable: the inner product of a vector and a row of a matrix -/
example : ∃ (E : Env Int) (o : Overload), o ∈ reductions ∧ o.fn = .dot ∧ E.t.Legal 3 ∧
    List.Forall₂ Fits o.pars [.vec ⟨[1, 2, 3], 0, 3⟩, .vec ⟨[9, 9, 4, 5, 6, 9], 2, 3⟩] ∧
    Stores (.vec ⟨[9, 9, 4, 5, 6, 9], 2, 3⟩) 3 (fun i => (4 : Int) + i) ∧
    o.run reductions E [.vec ⟨[1, 2, 3], 0, 3⟩, .vec ⟨[9, 9, 4, 5, 6, 9], 2, 3⟩] = .ok 32 := by
  refine ⟨⟨.node (.thread [2]) (.thread [0, 1]), abs, id, -1000, 1000⟩,
    ⟨.dot, [.obj .vector .d true, .obj (.view1D .mat) .d true], none, some .d, .call .dot [0, 1]⟩, ?_, rfl,
    by unfold RTree.Legal; decide, .cons trivial (.cons trivial .nil), ?_, ?_⟩
  · decide +kernel
  · refine ⟨?_, rfl, ?_⟩
    · unfold Win.Ok; decide
    · decide
  · decide +kernel

/-- and the maximum of a dense tensor and the minimum of a vector -/
example : ∃ (E : Env Int) (o o' : Overload) (T : TDense Int), o ∈ reductions ∧ o.fn = .max ∧ o' ∈ reductions ∧
    o'.fn = .min ∧ o.pars = [.obj .tdense .s true] ∧ owning (.obj .tdense .s true) ∧ E.t.Legal 4 ∧
    T.shape = [2, 1, 2] ∧ Stores (.ten T) 4 (fun i => -1 - (i : Int)) ∧
    o.run reductions E [.ten T] = .ok (-1) ∧ o'.run reductions E [.vec ⟨[4, -1, -2, -3], 0, 4⟩] = .ok (-3) := by
  refine ⟨⟨.node (.thread [2]) (.thread [0, 3, 1]), abs, id, -1000, 1000⟩,
    ⟨.max, [.obj .tdense .s true], some .s, none, .core .tmax .s (some .tdense) [0]⟩,
    ⟨.min, [.obj .vector .s true], some .s, none, .core .vmin .s (some .vector) [0]⟩,
    ⟨[2, 1, 2], [-1, -2, -3, -4], 4, 4, 0, true⟩, ?_, rfl, ?_, rfl, rfl, trivial,
    by unfold RTree.Legal; decide, rfl, ?_, ?_, ?_⟩
  · decide +kernel
  · decide +kernel
  · refine ⟨?_, rfl, ?_⟩
    · constructor <;> decide
    · intro pos hp
      obtain ⟨a, b, c, rfl, ha, hb, hc⟩ : ∃ a b c, pos = [a, b, c] ∧ a < 2 ∧ b < 1 ∧ c < 2 := by
        rcases pos with _ | ⟨a, _ | ⟨b, _ | ⟨c, _ | ⟨d, l⟩⟩⟩⟩ <;> simp [InShape] at hp <;>
          exact ⟨a, b, c, rfl, by simp_all⟩
      have : ∀ a, a < 2 → ∀ b, b < 1 → ∀ c, c < 2 →
        TDense.at_ (⟨[2, 1, 2], [-1, -2, -3, -4], 4, 4, 0, true⟩ : TDense Int) [a, b, c] =
          .ok (-1 - (rowMajor [2, 1, 2] [a, b, c] : Int)) := by decide
      exact this a ha b hb c hc
  · decide +kernel
  · decide +kernel

end Verif.Reduction
