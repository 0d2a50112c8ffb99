import Verif.Props.DirectDev
import Verif.Props.DC

/-!
C116, the eigensolvers `DC` in a GPU build. They always transfer the host copies to the device, compute there, and fetch the
results.
-/

namespace Verif.Direct

open Verif.Lapack

variable {α : Type}

/-- `Dense.Reads` looks at the first `rowN * colN` elements only -/
theorem reads_of_val {D E : Dense α} (hr : D.rowN = E.rowN) (hc : D.colN = E.colN) (hn : D.nnz = E.nnz)
    (hD0 : D.first = 0) (hE0 : E.first = 0) (ha : E.nnz ≤ E.alloc)
    (h : ∀ k v, k < D.nnz → D.val[k]? = some v → E.val[k]? = some v) {f : Nat → Nat → α} (hf : D.Reads f) :
    E.Reads f := by
  intro i j hi hj
  have h1 := hf i j (hr ▸ hi) (hc ▸ hj)
  unfold Dense.at_ at h1 ⊢
  rw [cassert_decide hi, Res.ok_bind, cassert_decide hj, Res.ok_bind]
  rw [cassert_decide (hr ▸ hi), Res.ok_bind, cassert_decide (hc ▸ hj), Res.ok_bind] at h1
  unfold Dense.at1 at h1 ⊢
  obtain ⟨_, e1, h1⟩ := Res.bind_eq_ok.mp h1
  obtain ⟨_, e2, h1⟩ := Res.bind_eq_ok.mp h1
  have hk : D.colN * i + j < D.nnz := by
    by_contra hne
    simp [cassert, hne] at e1
  rw [hD0, Nat.zero_add, rd_eq_ok] at h1
  rw [← hc, ← hn, cassert_decide hk, Res.ok_bind, hE0, Nat.zero_add, cassert_decide (by omega), Res.ok_bind, rd_eq_ok]
  exact h _ _ hk h1

theorem vreads_of_val [Field α] {u v : Vec α} (hn : u.nnz = v.nnz) (hu0 : u.first = 0) (hv0 : v.first = 0)
    (h : ∀ k y, k < u.nnz → u.val[k]? = some y → v.val[k]? = some y) {n : Nat} {f : Nat → α} (hf : VReads u n f) :
    VReads v n f := by
  refine ⟨hn ▸ hf.1, fun i hi => ?_⟩
  have := hf.2 i hi
  rw [Vec.get, hu0, Nat.zero_add, rd_eq_ok] at this
  rw [Vec.get, hv0, Nat.zero_add, rd_eq_ok]
  exact h i _ (by rw [hf.1]; exact hi) this

/-- the copy of the host's elements that `send()` makes -/
theorem send_mat {A : DDense α} (hA : A.host.WF) (h0 : A.host.first = 0) :
    (A.send true).devMat.WF ∧ (A.send true).devMat.val = A.host.val.take A.host.nnz := by
  have hv : (A.send true).devMat.val = A.host.val.take A.host.nnz := by
    show (A.host.val.drop A.host.first).take A.host.nnz = _
    rw [h0, List.drop_zero]
  refine ⟨⟨rfl, hA.nnz_eq, ?_⟩, hv⟩
  have h1 := hA.window
  have h2 := hA.lenV
  show 0 + A.host.nnz ≤ (A.send true).devMat.val.length
  rw [hv, List.length_take]
  omega

theorem send_mat_reads {A : DDense α} (hA : A.host.WF) (h0 : A.host.first = 0) (hF : A.Fresh) {f : Nat → Nat → α}
    (hf : A.cur.Reads f) : A.host.Reads f ∧ (A.send true).devMat.Reads f := by
  have hw := send_mat hA h0
  have h1 := hA.window
  have h2 := hA.lenV
  have hh : A.host.Reads f := by
    cases ho : A.on with
    | false => rwa [mcur_off ho] at hf
    | true =>
      rw [mcur_on ho] at hf
      refine reads_of_val (D := A.devMat) (E := A.host) rfl rfl rfl rfl h0 (by omega) (fun k v hk hv => ?_) hf
      have hd : A.devMat.val = A.host.val.take A.host.nnz := by
        show A.dev = _
        rw [hF ho, h0, List.drop_zero]
      have hk : k < A.host.nnz := hk
      rw [hd, List.getElem?_take_of_lt hk] at hv
      exact hv
  refine ⟨hh, ?_⟩
  refine reads_of_val (D := A.host) (E := (A.send true).devMat) rfl rfl rfl h0 rfl ?_ (fun k v hk hv => ?_) hh
  · have := hw.1.window
    have h3 : (A.send true).devMat.first = 0 := rfl
    omega
  · rw [hw.2, List.getElem?_take_of_lt hk]
    exact hv

theorem send_vec {x : DVec α} (hx : x.host.WF) : (x.send true).devVec.WF ∧ (x.send true).devVec.nnz = x.host.nnz := by
  refine ⟨⟨hx.created, rfl, ?_, rfl⟩, rfl⟩
  have h1 := hx.nnz_le
  have h2 := hx.lenV
  show x.host.nnz ≤ ((x.host.val.drop x.host.first).take x.host.nnz).length
  rw [hx.first0, List.drop_zero, List.length_take]
  omega

/-- what the user sees after `recv()` of a result `F` -/
theorem recv_mat {A : DDense α} (hA : A.host.WF) (h0 : A.host.first = 0) {F : Dense α}
    (hr : F.rowN = A.host.rowN) (hc : F.colN = A.host.colN) (hn : F.nnz = A.host.nnz) (hF0 : F.first = 0)
    {V : Nat → Nat → α} (hV : F.Reads V) :
    (({ A.send true with dev := F.val } : DDense α).recv true).on = false ∧
      (({ A.send true with dev := F.val } : DDense α).recv true).cur.Reads V := by
  have e : ({ A.send true with dev := F.val } : DDense α).recv true =
      { host := { A.host with val := F.val ++ A.host.val.drop F.val.length }, dev := F.val, on := false } := by
    show DDense.mk ({ A.host with val := (A.host.val.take A.host.first ++ F.val ++
      A.host.val.drop (A.host.first + F.val.length)) }) F.val false = _
    rw [h0, List.take_zero, List.nil_append, Nat.zero_add]
  rw [e, mcur_off rfl]
  have h1 := hA.window
  refine ⟨rfl, reads_of_val (E := { A.host with val := F.val ++ A.host.val.drop F.val.length }) hr hc hn hF0 h0 (by show A.host.nnz ≤ A.host.alloc; omega) (fun k v _ hv => ?_) hV⟩
  have hlt : k < F.val.length := by
    by_contra hne
    rw [List.getElem?_eq_none (by omega)] at hv
    cases hv
  show (F.val ++ A.host.val.drop F.val.length)[k]? = _
  rw [List.getElem?_append_left hlt]
  exact hv

theorem recv_vec [Field α] {x : DVec α} (hx : x.host.WF) {u : Vec α} (hn : u.nnz = x.host.nnz) (hu0 : u.first = 0) {n : Nat}
    {w : Nat → α} (hw : VReads u n w) :
    (({ x.send true with dev := u.val } : DVec α).recv true).on = false ∧
      VReads (({ x.send true with dev := u.val } : DVec α).recv true).cur n w := by
  have e : ({ x.send true with dev := u.val } : DVec α).recv true =
      { host := { x.host with val := u.val ++ x.host.val.drop u.val.length }, dev := u.val, on := false } := by
    show DVec.mk ({ x.host with val := (x.host.val.take x.host.first ++ u.val ++
      x.host.val.drop (x.host.first + u.val.length)) }) u.val false = _
    rw [hx.first0, List.take_zero, List.nil_append, Nat.zero_add]
  rw [e, cur_off rfl]
  refine ⟨rfl, vreads_of_val (v := { x.host with val := u.val ++ x.host.val.drop u.val.length }) hn hu0 hx.first0 (fun k v _ hv => ?_) hw⟩
  have hlt : k < u.val.length := by
    by_contra hne
    rw [List.getElem?_eq_none (by omega)] at hv
    cases hv
  show (u.val ++ x.host.val.drop u.val.length)[k]? = _
  rw [List.getElem?_append_left hlt]
  exact hv

/-- the library that computes eigenvalues, and the array it is given -/
def eigLib (gpu : Bool) (L Cu : Lib α) : Lib α := if gpu then Cu else L
def eigArr (gpu : Bool) (A : DDense α) : List α := if gpu then A.host.val.take A.host.nnz else A.host.val

theorem syevd_shape {L : Lib α} {A F : Dense α} {W u : Vec α} {a b : Bool} {i : Int}
    (h : Lapack.syevd L A W a b = .ok (F, u, i)) :
    F.rowN = A.rowN ∧ F.colN = A.colN ∧ F.nnz = A.nnz ∧ F.first = A.first ∧ u.nnz = W.nnz ∧ u.first = W.first := by
  unfold Lapack.syevd at h
  obtain ⟨_, _, h⟩ := Res.bind_eq_ok.mp h
  obtain ⟨_, _, h⟩ := Res.bind_eq_ok.mp h
  cases h
  exact ⟨rfl, rfl, rfl, rfl, rfl, rfl⟩

/-- **C116** (eigenvalues). For every symmetric matrix whose host copy is current, in a GPU build or not: on `SUCCESS` the user
sees orthonormal eigenvectors and ascending eigenvalues of the matrix; `SUCCESS` is returned exactly if the library
succeeds; in a GPU build both results are on the host. -/
theorem C116_dc_standard_partial [Field α] [LinearOrder α] {gpu : Bool} {L Cu : Lib α} (hL : L.EvOk) (hCu : Cu.EvOk)
    {A : DDense α} (hA : A.host.WF) (h0 : A.host.first = 0) (hF : A.Fresh) {W : DVec α} (hW : W.host.WF)
    (hgpu : A.on = true ∨ W.on = true → gpu = true) {n : Nat} (hr : A.host.rowN = n) (hc : A.host.colN = n)
    (hn : W.host.nnz = n) {f : Nat → Nat → α} (hf : A.cur.Reads f) (hs : ∀ i j, i < n → j < n → f i j = f j i) :
    ∃ s A' W', DC.standard gpu L Cu 0 A W = .ok (s, A', W') ∧
      (s = success ↔ ((eigLib gpu L Cu).syevd true true n (eigArr gpu A) n).2.2 = 0) ∧
      (s = success → ∃ V w, A'.cur.Reads V ∧ VReads W'.cur n w ∧ EigenSystem n f w V) ∧
      (gpu = true → A'.on = false ∧ W'.on = false) := by
  obtain ⟨hh, hd⟩ := send_mat_reads hA h0 hF hf
  cases gpu with
  | true =>
    obtain ⟨hw1, hw2⟩ := send_mat hA h0
    obtain ⟨hv1, hv2⟩ := send_vec hW
    obtain ⟨s, F, u, h1, h2, h3⟩ := C69_dc_standard hCu hw1 rfl (n := n) hr hc hd hs hv1 (hv2.trans hn)
    unfold Lapack.DC.standard at h1
    rw [if_pos rfl] at h1
    obtain ⟨⟨F', u', i⟩, e1, h1⟩ := Res.bind_eq_ok.mp h1
    have hsh := syevd_shape e1
    cases h1
    refine ⟨DC.status i, ({ A.send true with dev := F.val } : DDense α).recv true,
      ({ W.send true with dev := u.val } : DVec α).recv true, ?_, ?_, ?_, ?_⟩
    · unfold DC.standard DC.syevd
      rw [if_pos rfl, if_pos rfl]
      dsimp only
      rw [e1]
      rfl
    · show DC.status i = success ↔ (Cu.syevd true true n (A.host.val.take A.host.nnz) n).2.2 = 0
      rw [← hw2]
      exact h2
    · intro hsucc
      obtain ⟨V, w, hV, hw, hE⟩ := h3 hsucc
      exact ⟨V, w, (recv_mat hA h0 hsh.1 hsh.2.1 hsh.2.2.1 hsh.2.2.2.1 hV).2,
        (recv_vec hW hsh.2.2.2.2.1 hsh.2.2.2.2.2 hw).2, hE⟩
    · intro _
      exact ⟨rfl, rfl⟩
  | false =>
    have hAo : A.on = false := by
      cases ho : A.on with
      | false => rfl
      | true => exact absurd (hgpu (Or.inl ho)) (by simp)
    have hWo : W.on = false := by
      cases ho : W.on with
      | false => rfl
      | true => exact absurd (hgpu (Or.inr ho)) (by simp)
    obtain ⟨s, F, u, h1, h2, h3⟩ := C69_dc_standard hL hA h0 (n := n) hr hc hh hs hW hn
    unfold Lapack.DC.standard at h1
    rw [if_pos rfl] at h1
    obtain ⟨⟨F', u', i⟩, e1, h1⟩ := Res.bind_eq_ok.mp h1
    cases h1
    refine ⟨DC.status i, { A with host := F }, { W with host := u }, ?_, h2, ?_, fun h => by cases h⟩
    · unfold DC.standard DC.syevd
      rw [if_pos rfl, if_neg (by simp)]
      dsimp only
      rw [e1]
      rfl
    · intro hsucc
      obtain ⟨V, w, hV, hw, hE⟩ := h3 hsucc
      refine ⟨V, w, ?_, ?_, hE⟩
      · rw [mcur_off (by exact hAo)]; exact hV
      · rw [cur_off (by exact hWo)]; exact hw

/-- **C116**, violated. In a GPU build the eigensolver ignores what is on the device: the elements of the device copies of
the matrix and of the vector, and whether there are device copies, have no influence on the outcome. -/
theorem C116_dc_ignores_device_violated (L Cu : Lib α) (A : DDense α) (W : DVec α) (d e : List α) (p q : Bool) :
    DC.standard true L Cu 0 { A with dev := d, on := p } { W with dev := e, on := q } = DC.standard true L Cu 0 A W := rfl

/-- The matrix (1) was sent to the device and changed to (2) there. The eigenvalue of the matrix the user sees is 2; the
eigensolver returns `SUCCESS` and 1. -/
theorem C116_dc_stale_violated {L Cu : Lib ℝ} (hL : L.EvOk) (hCu : Cu.EvOk)
    (hS : ∀ n a, 0 < n → extent n n n ≤ a.length → (Cu.syevd true true n a n).2.2 = 0) :
    ∃ A' W', DC.standard true L Cu 0 ⟨⟨1, 1, [1], 1, 1, 0, true⟩, [2], true⟩ ⟨⟨[0], 1, 1, 0, true⟩, [0], true⟩ =
      .ok (success, A', W') ∧ W'.cur.get 0 = .ok 1 := by
  obtain ⟨s, A', W', h1, h2, h3, _⟩ := C116_dc_standard_partial (gpu := true) hL hCu
    (A := ⟨⟨1, 1, [1], 1, 1, 0, true⟩, [], false⟩) ⟨rfl, rfl, by decide⟩ rfl (fun h => by cases h)
    (W := ⟨⟨[0], 1, 1, 0, true⟩, [], false⟩) ⟨rfl, rfl, by decide, rfl⟩ (fun _ => rfl) (n := 1) rfl rfl rfl
    (f := fun _ _ => 1)
    (by
      intro i j hi hj
      have hi : i < 1 := hi
      have hj : j < 1 := hj
      interval_cases i; interval_cases j; rfl)
    (fun _ _ _ _ => rfl)
  have hs : s = success := h2.mpr (hS 1 _ (by decide) (by decide))
  subst hs
  refine ⟨A', W', ?_, ?_⟩
  · rw [← h1]
    exact C116_dc_ignores_device_violated L Cu ⟨⟨1, 1, [1], 1, 1, 0, true⟩, [], false⟩
      ⟨⟨[0], 1, 1, 0, true⟩, [], false⟩ [2] [0] true true
  · obtain ⟨V, w, _, hw, hE⟩ := h3 rfl
    have e1 := hE.1 0 (by decide) 0 (by decide)
    have e2 := hE.2.1 0 0 (by decide) (by decide)
    simp [Spec.mulVec] at e1 e2
    have hV : V 0 0 ≠ 0 := by
      intro h
      rw [h] at e2
      simp at e2
    rw [hw.2 0 (by decide)]
    have : w 0 = 1 := mul_right_cancel₀ hV (by rw [one_mul]; exact e1.symm)
    rw [this]

/-- the hypotheses can be met -/
example : ∃ L : Lib ℝ, L.EvOk ∧ ∃ A' W', DC.standard true L L 0 ⟨⟨1, 1, [1], 1, 1, 0, true⟩, [2], true⟩
    ⟨⟨[0], 1, 1, 0, true⟩, [0], true⟩ = .ok (success, A', W') ∧ W'.cur.get 0 = .ok 1 := by
  obtain ⟨L, _, _, hE, _, hS⟩ := exists_lib_real
  exact ⟨L, hE, C116_dc_stale_violated hE hE hS⟩

theorem sygvd_shape {L : Lib α} {A B F G : Dense α} {W u : Vec α} {t : Int} {a b : Bool} {i : Int}
    (h : Lapack.sygvd L A B W t a b = .ok (F, G, u, i)) :
    F.rowN = A.rowN ∧ F.colN = A.colN ∧ F.nnz = A.nnz ∧ F.first = A.first ∧ u.nnz = W.nnz ∧ u.first = W.first := by
  unfold Lapack.sygvd at h
  obtain ⟨_, _, h⟩ := Res.bind_eq_ok.mp h
  obtain ⟨_, _, h⟩ := Res.bind_eq_ok.mp h
  obtain ⟨_, _, h⟩ := Res.bind_eq_ok.mp h
  cases h
  exact ⟨rfl, rfl, rfl, rfl, rfl, rfl⟩

/-- **C116** (generalised eigenvalues), GPU build. For all symmetric matrices whose host copies are current and `itype` 1, 2
or 3: on `SUCCESS` the user sees eigenvectors and ascending eigenvalues of the problem. `A` and the eigenvalues are then on
the host; the second matrix is left on the device. -/
theorem C116_dc_generalized_partial [Field α] [LinearOrder α] {L Cu : Lib α} (hCu : Cu.GvOk)
    {A B : DDense α} (hA : A.host.WF) (h0 : A.host.first = 0) (hF : A.Fresh) (hB : B.host.WF) (hB0 : B.host.first = 0)
    (hBF : B.Fresh) {W : DVec α} (hW : W.host.WF) {n : Nat} (hr : A.host.rowN = n) (hc : A.host.colN = n)
    (hBr : B.host.rowN = n) (hBc : B.host.colN = n)
    (hn : W.host.nnz = n) {f g : Nat → Nat → α} (hf : A.cur.Reads f) (hg : B.cur.Reads g)
    (hs : ∀ i j, i < n → j < n → f i j = f j i) (hsg : ∀ i j, i < n → j < n → g i j = g j i)
    {itype : Int} (ht : itype = 1 ∨ itype = 2 ∨ itype = 3) :
    ∃ s A' B' W', DC.generalized true L Cu 0 A B W itype = .ok (s, A', B', W') ∧
      (s = success ↔ (Cu.sygvd itype true true n (eigArr true A) n (eigArr true B) n).2.2.2 = 0) ∧
      (s = success → ∃ V w, A'.cur.Reads V ∧ VReads W'.cur n w ∧
        (∀ k, k < n → GenEig itype n f g (w k) (V k) ∧ ∃ i, i < n ∧ V k i ≠ 0) ∧
        ∀ k l, k ≤ l → l < n → w k ≤ w l) ∧
      A'.on = false ∧ W'.on = false ∧ B'.on = true := by
  obtain ⟨_, hd⟩ := send_mat_reads hA h0 hF hf
  obtain ⟨_, hdB⟩ := send_mat_reads hB hB0 hBF hg
  obtain ⟨hw1, hw2⟩ := send_mat hA h0
  obtain ⟨hb1, hb2⟩ := send_mat hB hB0
  obtain ⟨hv1, hv2⟩ := send_vec hW
  obtain ⟨s, F, G, u, h1, h2, _, h3⟩ := C69_dc_generalized hCu hw1 rfl hb1 rfl (n := n) hr hc hBr hBc hd hdB hs hsg hv1
    (hv2.trans hn) itype
  unfold Lapack.DC.generalized at h1
  rw [if_pos rfl] at h1
  obtain ⟨⟨F', G', u', i⟩, e1, h1⟩ := Res.bind_eq_ok.mp h1
  have hsh := sygvd_shape e1
  cases h1
  refine ⟨DC.status i, ({ A.send true with dev := F.val } : DDense α).recv true, { B.send true with dev := G.val },
    ({ W.send true with dev := u.val } : DVec α).recv true, ?_, ?_, ?_, rfl, rfl, rfl⟩
  · unfold DC.generalized DC.sygvd
    rw [if_pos rfl, if_pos rfl, if_pos ht]
    dsimp only
    rw [e1]
    rfl
  · show DC.status i = success ↔
      (Cu.sygvd itype true true n (A.host.val.take A.host.nnz) n (B.host.val.take B.host.nnz) n).2.2.2 = 0
    rw [← hw2, ← hb2]
    exact h2
  · intro hsucc
    obtain ⟨V, w, hV, hw, hE⟩ := h3 hsucc
    exact ⟨V, w, (recv_mat hA h0 hsh.1 hsh.2.1 hsh.2.2.1 hsh.2.2.2.1 hV).2,
      (recv_vec hW hsh.2.2.2.2.1 hsh.2.2.2.2.2 hw).2, hE⟩

/-- **C116**: an `itype` that does not exist is an exception in a GPU build (it is `RESIDUAL_NAN` in the others, C69). -/
theorem C116_dc_itype (L Cu : Lib α) (A B : DDense α) (W : DVec α) {itype : Int}
    (ht : ¬ (itype = 1 ∨ itype = 2 ∨ itype = 3)) :
    DC.generalized true L Cu 0 A B W itype = .throw "itype should be either 1, 2, 3" := by
  unfold DC.generalized DC.sygvd
  rw [if_pos rfl, if_pos rfl, if_neg ht]
  rfl

/-- **C116**, violated: the second matrix of the generalised problem, on the host before the call, is on the device
afterwards, whenever the call returns. -/
theorem C116_dc_second_violated (L Cu : Lib α) {A B : DDense α} {W : DVec α} {itype : Int} {s : Int} {A' B' : DDense α}
    {W' : DVec α} (h : DC.generalized true L Cu 0 A B W itype = .ok (s, A', B', W')) : B'.on = true ∧ A'.on = false := by
  unfold DC.generalized DC.sygvd at h
  rw [if_pos rfl, if_pos rfl] at h
  split at h
  · obtain ⟨⟨A1, B1, W1, i⟩, h1, h⟩ := Res.bind_eq_ok.mp h
    obtain ⟨⟨F, G, u, j⟩, _, h1⟩ := Res.bind_eq_ok.mp h1
    cases h1
    cases h
    exact ⟨rfl, rfl⟩
  · cases h

/-- the hypotheses of the generalised problem can be met: (2) x = λ (1) x -/
example : ∃ L : Lib ℝ, L.GvOk ∧ ∃ s A' B' W', DC.generalized true L L 0 ⟨⟨1, 1, [2], 1, 1, 0, true⟩, [], false⟩
    ⟨⟨1, 1, [1], 1, 1, 0, true⟩, [1], true⟩ ⟨⟨[0], 1, 1, 0, true⟩, [], false⟩ 1 = .ok (s, A', B', W') := by
  obtain ⟨L, _, _, _, hG, _⟩ := exists_lib_real
  obtain ⟨s, A', B', W', h, _⟩ := C116_dc_generalized_partial (L := L) hG
    (A := ⟨⟨1, 1, [2], 1, 1, 0, true⟩, [], false⟩) (B := ⟨⟨1, 1, [1], 1, 1, 0, true⟩, [1], true⟩)
    ⟨rfl, rfl, by decide⟩ rfl (fun h => by cases h) ⟨rfl, rfl, by decide⟩ rfl (fun _ => rfl)
    (W := ⟨⟨[0], 1, 1, 0, true⟩, [], false⟩) ⟨rfl, rfl, by decide, rfl⟩ (n := 1) rfl rfl rfl rfl rfl
    (f := fun _ _ => 2) (g := fun _ _ => 1)
    (by
      intro i j hi hj
      have hi : i < 1 := hi
      have hj : j < 1 := hj
      interval_cases i; interval_cases j; rfl)
    (by
      intro i j hi hj
      have hi : i < 1 := hi
      have hj : j < 1 := hj
      interval_cases i; interval_cases j; rfl)
    (fun _ _ _ _ => rfl) (fun _ _ _ _ => rfl) (itype := 1) (Or.inl rfl)
  exact ⟨L, hG, s, A', B', W', h⟩

end Verif.Direct
