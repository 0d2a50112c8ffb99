import Verif.Props.DirectDev

/-!
C116, dense `Cholesky` in a GPU build. The factorisation is done on the side the matrix is on; then the matrix and the vector are
fetched, the solution is computed on the host, and the vector is sent to the device.
-/

namespace Verif.Direct

open Verif.Lapack

variable {α : Type}

/-- the factorisation routine of the side the matrix is on, and the host's solution routine. cuSOLVER documents that
`sytrf` returns the factors and the pivots in the format of LAPACK. -/
def mixed (onDevice : Bool) (L Cu : Lib α) : Lib α := if onDevice then { L with sytrf := Cu.sytrf } else L

theorem chol_run {gpu : Bool} {L Cu : Lib α} {A : DDense α} (hgpu : A.on = true → gpu = true)
    (hex : A.on = true → A.host.first = 0 ∧ A.host.val.length = A.dev.length)
    (hlen : A.on = true → (Cu.sytrf true A.host.rowN A.dev A.host.rowN A.host.rowN).1.length = A.dev.length)
    {x : DVec α} {s : Int} {A' : Dense α} {x' : Vec α}
    (h : Lapack.Cholesky.solve2 (mixed A.on L Cu) A.cur (x.recv gpu).host = .ok (s, A', x')) :
    ∃ A'' : DDense α, Cholesky.core gpu L Cu A x = .ok (s, A'', ({ x.recv gpu with host := x' } : DVec α).send gpu) ∧
      A''.on = false ∧ x'.nnz = (x.recv gpu).host.nnz ∧ x'.first = (x.recv gpu).host.first := by
  unfold Lapack.Cholesky.solve2 at h
  obtain ⟨⟨F, ip, i1⟩, h1, h⟩ := Res.bind_eq_ok.mp h
  obtain ⟨⟨y, i2⟩, h2, h⟩ := Res.bind_eq_ok.mp h
  cases h
  have hy : x'.nnz = (x.recv gpu).host.nnz ∧ x'.first = (x.recv gpu).host.first := by
    unfold Lapack.sytrs at h2
    obtain ⟨_, _, h2⟩ := Res.bind_eq_ok.mp h2
    obtain ⟨_, _, h2⟩ := Res.bind_eq_ok.mp h2
    obtain ⟨_, _, h2⟩ := Res.bind_eq_ok.mp h2
    cases h2
    exact ⟨rfl, rfl⟩
  cases hA : A.on with
  | true =>
    obtain ⟨hf0, hvl⟩ := hex hA
    rw [mcur_on hA, hA] at h1
    have e1 : Lapack.sytrf Cu A.devMat (List.replicate (min A.host.rowN A.host.colN) 0) = .ok (A', ip, i1) := h1
    have hA' : A'.rowN = A.host.rowN ∧ A'.colN = A.host.colN ∧ A'.val.length = A.dev.length := by
      unfold Lapack.sytrf at e1
      obtain ⟨_, _, e1⟩ := Res.bind_eq_ok.mp e1
      obtain ⟨_, _, e1⟩ := Res.bind_eq_ok.mp e1
      cases e1
      exact ⟨rfl, rfl, hlen hA⟩
    have hg := hgpu hA
    subst hg
    have hF : ({ A with dev := A'.val } : DDense α).recv true =
        { host := { A.host with val := A'.val }, dev := A'.val, on := false } := by
      unfold DDense.recv
      rw [if_pos (by simp [hA])]
      simp [hf0, hA'.2.2, ← hvl]
    have e2 : Lapack.sytrs L { A.host with val := A'.val } (x.recv true).host ip = .ok (x', i2) := by
      rw [← h2, hA]
      unfold Lapack.sytrs
      rw [hA'.1, hA'.2.1]
      rfl
    refine ⟨{ host := { A.host with val := A'.val }, dev := A'.val, on := false }, ?_, rfl, hy⟩
    unfold Cholesky.core sytrf sytrs
    dsimp only
    rw [if_pos hA, if_pos rfl, e1]
    simp only [Res.ok_bind]
    rw [hF]
    simp only
    rw [e2]
    rfl
  | false =>
    rw [mcur_off hA, hA] at h1
    have e1 : Lapack.sytrf L A.host (List.replicate (min A.host.rowN A.host.colN) 0) = .ok (A', ip, i1) := h1
    have e2 : Lapack.sytrs L A' (x.recv gpu).host ip = .ok (x', i2) := by
      rw [← h2, hA]; rfl
    have hF : ({ A with host := A' } : DDense α).recv gpu = { A with host := A' } := by
      unfold DDense.recv
      rw [if_neg (by simp [hA])]
    refine ⟨{ A with host := A' }, ?_, hA, hy⟩
    unfold Cholesky.core sytrf sytrs
    dsimp only
    rw [if_neg (by simp [hA]), e1]
    simp only [Res.ok_bind]
    rw [hF]
    simp only
    rw [e2]
    rfl

/-- the elements of a vector after `recv()` are those the user saw before -/
theorem recv_reads [Field α] {gpu : Bool} {x : DVec α} (hgpu : x.on = true → gpu = true) (hx : x.cur.WF)
    (hx0 : x.host.first = 0) {n : Nat} {b : Nat → α} (hb : VReads x.cur n b) :
    (x.recv gpu).host.first = 0 ∧ (x.recv gpu).host.nnz = n ∧ n ≤ (x.recv gpu).host.val.length ∧
      ∀ i, i < n → (x.recv gpu).host.val[i]? = some (b i) := by
  cases ho : x.on with
  | true =>
    rw [cur_on ho] at hx hb
    have hr : x.recv gpu = { host := { x.host with val := x.dev ++ x.host.val.drop x.dev.length }, dev := x.dev, on := false } := by
      unfold DVec.recv
      rw [if_pos (by simp [ho, hgpu ho])]
      simp [hx0]
    have hle : n ≤ x.dev.length := by
      have := hx.nnz_le
      rw [← hb.1]
      exact this
    rw [hr]
    refine ⟨hx0, hb.1, by simp only [List.length_append]; omega, fun i hi => ?_⟩
    have := hb.2 i hi
    rw [Vec.get, hx.first0, Nat.zero_add, rd_eq_ok] at this
    simp only
    rw [List.getElem?_append_left (by omega)]
    exact this
  | false =>
    rw [cur_off ho] at hx hb
    have hr : x.recv gpu = x := by
      unfold DVec.recv
      rw [if_neg (by simp [ho])]
    rw [hr]
    have h1 := hx.nnz_le
    have h2 := hx.lenV
    have h3 := hb.1
    refine ⟨hx0, h3, by omega, fun i hi => ?_⟩
    have := hb.2 i hi
    rwa [Vec.get, hx.first0, Nat.zero_add, rd_eq_ok] at this

/-- after `send()` the user sees the elements of the host copy -/
theorem send_reads [Field α] {gpu : Bool} {y : DVec α} (hy : y.on = false) (h0 : y.host.first = 0) {n : Nat} {f : Nat → α}
    (h : VReads y.host n f) : VReads (y.send gpu).cur n f := by
  cases gpu with
  | false =>
    have : y.send false = y := rfl
    rw [this, cur_off hy]
    exact h
  | true =>
    have : y.send true = { y with dev := (y.host.val.drop y.host.first).take y.host.nnz, on := true } := rfl
    rw [this, cur_on rfl]
    refine ⟨h.1, fun i hi => ?_⟩
    have := h.2 i hi
    rw [Vec.get, h0, Nat.zero_add, rd_eq_ok] at this
    show rd ((y.host.val.drop y.host.first).take y.host.nnz) (0 + i) = _
    have h1 := h.1
    rw [rd_eq_ok, Nat.zero_add, h0, List.drop_zero, List.getElem?_take_of_lt (by omega)]
    exact this

theorem chol_core [Field α] {gpu : Bool} {L Cu : Lib α} {A : DDense α} (hL : (mixed A.on L Cu).SyOk) {x : DVec α}
    (hgpu : A.on = true ∨ x.on = true → gpu = true) (hA : A.cur.WF) (h0 : A.host.first = 0)
    (hex : A.on = true → A.host.val.length = A.dev.length) {n : Nat}
    (hn : 0 < n) (hr : A.cur.rowN = n) (hc : A.cur.colN = n) {f : Nat → Nat → α} (hf : A.cur.Reads f)
    (hsym : ∀ i j, i < n → j < n → f i j = f j i) (hx : x.cur.WF) (hx0 : x.host.first = 0)
    {b : Nat → α} (hb : VReads x.cur n b) :
    SolvedD n f b (Cholesky.core gpu L Cu A x) ∧
      ∀ s A' x', Cholesky.core gpu L Cu A x = .ok (s, A', x') → A'.on = false ∧ x'.on = gpu := by
  obtain ⟨r1, r2, r3, r4⟩ := recv_reads (fun h => hgpu (Or.inr h)) hx hx0 hb
  have hcf : A.cur.first = 0 := by
    unfold DDense.cur
    split
    · rfl
    · exact h0
  have hcr : A.cur.rowN = A.host.rowN := by unfold DDense.cur; split <;> rfl
  have hS := Solved.congr (fun i j hi hj => by
      split
      · rfl
      · exact hsym j i hj hi) (cholesky_core hL hA hcf hn hr hc hf r1 r2 r3 r4) (B := f)
  obtain ⟨s, A', x', h1, h2, h3⟩ := hS
  have hrun : ∃ A'' : DDense α,
      Cholesky.core gpu L Cu A x = .ok (s, A'', ({ x.recv gpu with host := x' } : DVec α).send gpu) ∧
      A''.on = false ∧ x'.nnz = (x.recv gpu).host.nnz ∧ x'.first = (x.recv gpu).host.first := by
    refine chol_run (fun h => hgpu (Or.inl h)) (fun h => ⟨h0, hex h⟩) (fun ho => ?_) h1
    rw [ho] at hL
    have hext := extent_sq hA hr hc
    rw [mcur_on ho] at hext
    have := (hL true n A.dev n n hext).length
    rw [← hcr, hr]
    exact this
  obtain ⟨A'', h4, h5, h6, h7⟩ := hrun
  have hoff : (x.recv gpu).on = false := by
    unfold DVec.recv
    by_cases h : (gpu && x.on) = true
    · rw [if_pos h]
    · rw [if_neg h]
      cases hxo : x.on with
      | false => rfl
      | true => exact absurd (by simp [hxo, hgpu (Or.inr hxo)]) h
  rw [h4]
  refine ⟨⟨s, _, _, rfl, fun hd => ?_, h3⟩, ?_⟩
  · obtain ⟨hs, xf, hxf, hsol⟩ := h2 hd
    exact ⟨hs, xf, send_reads (y := { x.recv gpu with host := x' }) hoff (h7.trans r1) hxf, hsol⟩
  · intro s' B' y' h
    cases h
    refine ⟨h5, ?_⟩
    unfold DVec.send
    cases gpu with
    | true => rfl
    | false => exact hoff

/-- **C116** (Cholesky, in-place overload). In single precision for every symmetric matrix and right-hand side, each on the
host or on the device; in double precision for a matrix on the host. Afterwards the matrix is on the host and, in a GPU
build, the vector on the device. -/
theorem C116_cholesky_inplace_partial [Field α] {gpu dbl : Bool} {L Cu : Lib α} {A : DDense α}
    (hL : (mixed A.on L Cu).SyOk) {x : DVec α} (hdbl : dbl = true → A.on = false)
    (hgpu : A.on = true ∨ x.on = true → gpu = true) (hA : A.cur.WF) (h0 : A.host.first = 0)
    (hex : A.on = true → A.host.val.length = A.dev.length) {n : Nat}
    (hn : 0 < n) (hr : A.cur.rowN = n) (hc : A.cur.colN = n) {f : Nat → Nat → α} (hf : A.cur.Reads f)
    (hsym : ∀ i j, i < n → j < n → f i j = f j i) (hx : x.cur.WF) (hx0 : x.host.first = 0)
    {b : Nat → α} (hb : VReads x.cur n b) :
    SolvedD n f b (Cholesky.solve2 gpu dbl L Cu A x) ∧
      ∀ s A' x', Cholesky.solve2 gpu dbl L Cu A x = .ok (s, A', x') → A'.on = false ∧ x'.on = gpu := by
  have : Cholesky.solve2 gpu dbl L Cu A x = Cholesky.core gpu L Cu A x := by
    unfold Cholesky.solve2
    rw [if_neg]
    intro h
    rw [Bool.and_eq_true] at h
    rw [hdbl h.1] at h
    exact absurd h.2 (by simp)
  rw [this]
  exact chol_core hL hgpu hA h0 hex hn hr hc hf hsym hx hx0 hb

/-- **C116** (Cholesky, in-place overload): in double precision a matrix on the device is refused. -/
theorem C116_cholesky_refused (gpu : Bool) (L Cu : Lib α) {A : DDense α} (h : A.on = true) (x : DVec α) :
    Cholesky.solve2 gpu true L Cu A x = .throw "error Dense Cholesky on GPU does not impl." := by
  unfold Cholesky.solve2
  rw [if_pos (by simp [h])]

/-- **C116** (Cholesky). `solve(A, x, b)` in both precisions, for `x` and `b` on the same side. -/
theorem C116_cholesky_solve_partial [Field α] {gpu : Bool} {L Cu : Lib α} {A : DDense α}
    (hL : (mixed A.on L Cu).SyOk) {x b : DVec α} (hsame : b.on = x.on)
    (hgpu : A.on = true ∨ x.on = true → gpu = true) (hA : A.cur.WF) (h0 : A.host.first = 0)
    (hex : A.on = true → A.host.val.length = A.dev.length) {n : Nat}
    (hn : 0 < n) (hr : A.cur.rowN = n) (hc : A.cur.colN = n) {f : Nat → Nat → α} (hf : A.cur.Reads f)
    (hsym : ∀ i j, i < n → j < n → f i j = f j i) (hx : x.cur.WF) (hx0 : x.host.first = 0) (hxn : x.cur.nnz = n)
    (hbw : b.cur.WF) {bf : Nat → α} (hb : VReads b.cur n bf) :
    SolvedD n f bf (Cholesky.solve gpu L Cu A x b) ∧
      ∀ s A' x', Cholesky.solve gpu L Cu A x b = .ok (s, A', x') → A'.on = false ∧ x'.on = gpu := by
  obtain ⟨y, h1, h2, h3, h4⟩ := copy_ok hsame (fun h => hgpu (Or.inr h)) hbw hx hxn hb
  have hy0 : y.host.first = 0 := by
    unfold copy at h1
    obtain ⟨_, _, h1⟩ := Res.bind_eq_ok.mp h1
    obtain ⟨_, _, h1⟩ := Res.bind_eq_ok.mp h1
    split at h1
    · split at h1
      · obtain ⟨_, _, h1⟩ := Res.bind_eq_ok.mp h1
        cases h1
        exact hx0
      · cases h1
    · obtain ⟨r, h5, h1⟩ := Res.bind_eq_ok.mp h1
      cases h1
      unfold copyVec at h5
      obtain ⟨_, _, h5⟩ := Res.bind_eq_ok.mp h5
      obtain ⟨_, _, h5⟩ := Res.bind_eq_ok.mp h5
      cases h5
      exact hx0
  unfold Cholesky.solve
  rw [h1, Res.ok_bind]
  exact chol_core hL (fun h => hgpu (h2 ▸ h)) hA h0 hex hn hr hc hf hsym h3 hy0 h4

end Verif.Direct
