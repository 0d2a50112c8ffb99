import Verif.Props.Direct
import Verif.Spec.DirectDevSpec

/-!
C116: the direct solvers in a GPU build, dense systems. The system that is solved is the one the user sees (`cur`): the
device copies while the data is on the device.
-/

namespace Verif.Direct

open Verif.Lapack

variable {α : Type}

/-- the matrix part: the outcome of `LU::solve` on one side is that of the library of this side -/
theorem lu_dev {Cu : Lib α} (L : Lib α) {A : DDense α} (hA : A.on = true) {x : DVec α} (hx : x.on = true) {s : Int}
    {A' : Dense α} {x' : Vec α} (h : Lapack.LU.solve2 Cu A.devMat x.devVec = .ok (s, A', x')) :
    LU.solve2 true L Cu A x = .ok (s, { A with dev := A'.val }, { x with dev := x'.val }) ∧
      x'.nnz = x.host.nnz ∧ x'.first = 0 := by
  unfold Lapack.LU.solve2 at h
  obtain ⟨⟨F, ip, i1⟩, h1, h⟩ := Res.bind_eq_ok.mp h
  obtain ⟨⟨y, i2⟩, h2, h⟩ := Res.bind_eq_ok.mp h
  cases h
  have hF : ({ A with dev := A'.val } : DDense α).devMat.val = A'.val ∧ A'.rowN = A.host.rowN ∧ A'.colN = A.host.colN := by
    unfold Lapack.getrf at h1
    obtain ⟨_, _, h1⟩ := Res.bind_eq_ok.mp h1
    obtain ⟨_, _, h1⟩ := Res.bind_eq_ok.mp h1
    cases h1
    exact ⟨rfl, rfl, rfl⟩
  have hS : Lapack.getrs Cu ({ A with dev := A'.val } : DDense α).devMat x.devVec ip = .ok (x', i2) := by
    rw [← h2]
    unfold Lapack.getrs
    rw [hF.1, hF.2.1, hF.2.2]
    rfl
  have hy : x'.nnz = x.host.nnz ∧ x'.first = 0 := by
    unfold Lapack.getrs at h2
    obtain ⟨_, _, h2⟩ := Res.bind_eq_ok.mp h2
    obtain ⟨_, _, h2⟩ := Res.bind_eq_ok.mp h2
    obtain ⟨_, _, h2⟩ := Res.bind_eq_ok.mp h2
    cases h2
    exact ⟨rfl, rfl⟩
  refine ⟨?_, hy⟩
  unfold LU.solve2 getrf getrs
  dsimp only
  simp only [hA, hx, if_true, Bool.and_self]
  have e1 : Lapack.getrf Cu A.devMat (List.replicate (min A.host.rowN A.host.colN) 0) = .ok (A', ip, i1) := h1
  rw [e1]
  rw [hA] at hS
  simp only [Res.ok_bind, Bool.and_self, if_true]
  rw [hS]
  rfl

theorem lu_host {L : Lib α} (gpu : Bool) (Cu : Lib α) {A : DDense α} (hA : A.on = false) {x : DVec α} {s : Int}
    {A' : Dense α} {x' : Vec α} (h : Lapack.LU.solve2 L A.host x.host = .ok (s, A', x')) :
    LU.solve2 gpu L Cu A x = .ok (s, { A with host := A' }, { x with host := x' }) := by
  unfold Lapack.LU.solve2 at h
  obtain ⟨⟨F, ip, i1⟩, h1, h⟩ := Res.bind_eq_ok.mp h
  obtain ⟨⟨y, i2⟩, h2, h⟩ := Res.bind_eq_ok.mp h
  cases h
  unfold LU.solve2 getrf getrs
  dsimp only
  simp only [hA, Bool.false_and, Bool.false_eq_true, if_false]
  rw [h1]
  simp only [Res.ok_bind]
  rw [h2]
  rfl

/-- What the user sees of a vector on the device. -/
theorem reads_dev [Field α] {x : DVec α} (hx : x.on = true) {v : Vec α} {n : Nat} {f : Nat → α}
    (h : VReads v n f) (hn : v.nnz = x.host.nnz) (h0 : v.first = 0) :
    VReads ({ x with dev := v.val } : DVec α).cur n f := by
  have : ({ x with dev := v.val } : DVec α).cur = ({ x with dev := v.val } : DVec α).devVec := by
    unfold DVec.cur
    rw [if_pos (by exact hx)]
  rw [this]
  refine ⟨hn.symm.trans h.1, fun i hi => ?_⟩
  have := h.2 i hi
  unfold Vec.get at this ⊢
  rw [h0] at this
  exact this

theorem cur_on {x : DVec α} (h : x.on = true) : x.cur = x.devVec := by unfold DVec.cur; rw [if_pos h]
theorem cur_off {x : DVec α} (h : x.on = false) : x.cur = x.host := by unfold DVec.cur; rw [h]; rfl
theorem mcur_on {x : DDense α} (h : x.on = true) : x.cur = x.devMat := by unfold DDense.cur; rw [if_pos h]
theorem mcur_off {x : DDense α} (h : x.on = false) : x.cur = x.host := by unfold DDense.cur; rw [h]; rfl

/-- what the user expects of `LU` and `Cholesky`: the system the user sees is solved, or reported as singular -/
def SolvedD [Field α] (n : Nat) (f : Nat → Nat → α) (b : Nat → α) (r : Res (Ret α)) : Prop := Solved n f b (seen r)

theorem lu_solved [Field α] {gpu : Bool} {L Cu : Lib α} {A : DDense α} {x : DVec α} (hsame : A.on = x.on)
    (hgpu : A.on = true → gpu = true) {n : Nat} {f : Nat → Nat → α} {b : Nat → α}
    (hd : A.on = true → Solved n f b (Lapack.LU.solve2 Cu A.devMat x.devVec))
    (hh : A.on = false → Solved n f b (Lapack.LU.solve2 L A.host x.host)) :
    SolvedD n f b (LU.solve2 gpu L Cu A x) ∧
      ∀ s A' x', LU.solve2 gpu L Cu A x = .ok (s, A', x') → A'.on = A.on ∧ x'.on = x.on := by
  cases hA : A.on with
  | true =>
    obtain ⟨s, A', x', h1, h2, h3⟩ := hd hA
    rw [hgpu hA]
    rw [hA] at hsame
    obtain ⟨h4, h5, h6⟩ := lu_dev L hA hsame.symm h1
    rw [h4]
    refine ⟨⟨s, _, _, rfl, fun hdet => ?_, h3⟩, ?_⟩
    · obtain ⟨hs, xf, hx, hsol⟩ := h2 hdet
      exact ⟨hs, xf, reads_dev hsame.symm hx h5 h6, hsol⟩
    · intro s' A'' x'' h
      cases h
      exact ⟨hA, rfl⟩
  | false =>
    obtain ⟨s, A', x', h1, h2, h3⟩ := hh hA
    rw [hA] at hsame
    have h4 := lu_host gpu Cu hA h1
    rw [h4]
    refine ⟨⟨s, _, _, rfl, fun hdet => ?_, h3⟩, ?_⟩
    · obtain ⟨hs, xf, hx, hsol⟩ := h2 hdet
      refine ⟨hs, xf, ?_, hsol⟩
      rw [cur_off (by exact hsame.symm)]
      exact hx
    · intro s' A'' x'' h
      cases h
      exact ⟨hA, rfl⟩

/-- **C116** (LU, in-place overload). For every square dense matrix and right-hand side that are on the same side, host or
device: the system the user sees is solved, or reported as singular, and both operands stay where they are. -/
theorem C116_lu_inplace_partial [Field α] {gpu : Bool} {L Cu : Lib α} (hL : L.LUOk) (hCu : Cu.LUOk) {A : DDense α}
    {x : DVec α} (hsame : A.on = x.on) (hgpu : A.on = true → gpu = true) (hA : A.cur.WF) (h0 : A.cur.first = 0) {n : Nat}
    (hn : 0 < n) (hr : A.cur.rowN = n) (hc : A.cur.colN = n) {f : Nat → Nat → α} (hf : A.cur.Reads f) (hx : x.cur.WF)
    {b : Nat → α} (hb : VReads x.cur n b) :
    SolvedD n f b (LU.solve2 gpu L Cu A x) ∧
      ∀ s A' x', LU.solve2 gpu L Cu A x = .ok (s, A', x') → A'.on = A.on ∧ x'.on = x.on := by
  refine lu_solved hsame hgpu (fun h => ?_) (fun h => ?_)
  · rw [mcur_on h] at hA h0 hr hc hf
    rw [cur_on (hsame.symm.trans h)] at hx hb
    exact C67_lu_inplace hCu hA h0 hn hr hc hf hx hb
  · rw [mcur_off h] at hA h0 hr hc hf
    rw [cur_off (hsame.symm.trans h)] at hx hb
    exact C67_lu_inplace hL hA h0 hn hr hc hf hx hb

/-- `blas::copy` between vectors on the same side: afterwards the user sees the elements of `b` in `x` -/
theorem copy_ok [Field α] {gpu : Bool} {b x : DVec α} (hsame : b.on = x.on) (hgpu : x.on = true → gpu = true)
    (hb : b.cur.WF) (hx : x.cur.WF) {n : Nat} (hxn : x.cur.nnz = n) {bf : Nat → α} (hbf : VReads b.cur n bf) :
    ∃ y : DVec α, copy gpu b x = .ok y ∧ y.on = x.on ∧ y.cur.WF ∧ VReads y.cur n bf := by
  have key : ∀ {u v : Vec α}, u.WF → v.WF → VReads u n bf → v.nnz = n →
      ∃ V, copyVec u v = .ok { v with val := V } ∧ V.length = v.val.length ∧
        ∀ w : Vec α, w.nnz = n → w.first = 0 → w.val = V → VReads w n bf := by
    intro u v hu hv huf hvn
    obtain ⟨V, hV, hVl, hVe⟩ := copyVec_ok hu hv huf.1 hvn
    refine ⟨V, hV, hVl, fun w hw hw0 hwV => ⟨hw, fun i hi => ?_⟩⟩
    have := huf.2 i hi
    rw [Vec.get, hu.first0, Nat.zero_add] at this
    rw [Vec.get, hw0, Nat.zero_add, hwV, rd_eq_ok, hVe i hi]
    exact rd_eq_ok.mp this
  have hnn : b.host.nnz = x.host.nnz := by
    have e1 : b.cur.nnz = b.host.nnz := by unfold DVec.cur; split <;> rfl
    have e2 : x.cur.nnz = x.host.nnz := by unfold DVec.cur; split <;> rfl
    rw [← e1, ← e2, hbf.1, hxn]
  unfold copy
  rw [cassert_decide hnn, Res.ok_bind, cassert_decide hsame, Res.ok_bind]
  cases hxo : x.on with
  | true =>
    rw [hgpu hxo, if_pos rfl, if_pos rfl]
    rw [cur_on (hsame.trans hxo)] at hb hbf
    rw [cur_on hxo] at hx hxn
    obtain ⟨V, h1, h2, h3⟩ := key hb hx hbf hxn
    rw [h1, Res.ok_bind]
    refine ⟨_, rfl, rfl, ?_, ?_⟩
    · rw [cur_on rfl]
      refine ⟨hx.created, rfl, ?_, rfl⟩
      have := hx.nnz_le
      show x.host.nnz ≤ V.length
      rw [h2]
      exact this
    · rw [cur_on rfl]
      exact h3 _ hxn rfl rfl
  | false =>
    rw [if_neg (by simp)]
    rw [cur_off (hsame.trans hxo)] at hb hbf
    rw [cur_off hxo] at hx hxn
    obtain ⟨V, h1, h2, h3⟩ := key hb hx hbf hxn
    rw [h1, Res.ok_bind]
    refine ⟨_, rfl, rfl, ?_, ?_⟩
    · rw [cur_off rfl]
      refine ⟨hx.created, ?_, hx.nnz_le, hx.first0⟩
      show V.length = x.host.alloc
      rw [h2]
      exact hx.lenV
    · rw [cur_off rfl]
      exact h3 _ hxn hx.first0 rfl

/-- **C116** (LU). The same for `solve(A, x, b)`, whatever `x` held before. -/
theorem C116_lu_solve_partial [Field α] {gpu : Bool} {L Cu : Lib α} (hL : L.LUOk) (hCu : Cu.LUOk) {A : DDense α}
    {x b : DVec α} (hsame : A.on = x.on) (hsame' : b.on = x.on) (hgpu : A.on = true → gpu = true) (hA : A.cur.WF)
    (h0 : A.cur.first = 0) {n : Nat} (hn : 0 < n) (hr : A.cur.rowN = n) (hc : A.cur.colN = n) {f : Nat → Nat → α}
    (hf : A.cur.Reads f) (hx : x.cur.WF) (hxn : x.cur.nnz = n) (hbw : b.cur.WF) {bf : Nat → α}
    (hb : VReads b.cur n bf) :
    SolvedD n f bf (LU.solve gpu L Cu A x b) ∧
      ∀ s A' x', LU.solve gpu L Cu A x b = .ok (s, A', x') → A'.on = A.on ∧ x'.on = x.on := by
  obtain ⟨y, h1, h2, h3, h4⟩ := copy_ok hsame' (fun h => hgpu (hsame.trans h)) hbw hx hxn hb
  unfold LU.solve
  rw [h1, Res.ok_bind, ← h2]
  exact C116_lu_inplace_partial hL hCu (hsame.trans h2.symm) hgpu hA h0 hn hr hc hf h3 h4

end Verif.Direct
