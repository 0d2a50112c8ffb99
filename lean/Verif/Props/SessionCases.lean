import Verif.Props.Session
import Verif.Props.SolverMat
import Verif.Props.Getvec

/-!
C98: the matrices that the theorems of `Verif.Props.Session` apply to, programs that meet their
hypotheses, and what goes wrong outside them.
-/

namespace Verif.Solver

open Verif.Spec

section matrices

variable {α : Type} [Zero α] [One α] [Add α] [Mul α]

/-- two overwritten windows without offset that agree everywhere have the same contents -/
theorem bufs_eq {v v' w w' : Win α} (hv : v.Updated v') (hw : w.Updated w') (h0 : v.off = 0)
    (h1 : w.off = 0) (hl : v.buf.length = w.buf.length) (n : Nat) (hn : v.buf.length = n)
    {f : Nat → α} (hf : ∀ i, i < n → v'.get i = .ok (f i)) (hg : ∀ i, i < n → w'.get i = .ok (f i)) :
    v'.buf = w'.buf := by
  refine List.ext_getElem? (fun i => ?_)
  rcases Nat.lt_or_ge i n with hi | hi
  · have a := hf i hi
    have b := hg i hi
    unfold Win.get at a b
    rw [hv.off, h0, Nat.zero_add, rd_eq_ok] at a
    rw [hw.off, h1, Nat.zero_add, rd_eq_ok] at b
    rw [a, b]
  · rw [List.getElem?_eq_none (by have := hv.len; omega),
      List.getElem?_eq_none (by have := hw.len; omega)]

/-- **C98, CRS**: `diag` of a square CRS matrix overwrites all of the target, for all schedules. -/
theorem C98_crs (N : Num α) {A : Crs α} (h : A.Safe) {zo order : List Nat}
    (hz : Order zo A.rowN) (ho : Order order A.rowN) : Overwrites (smatCrs N order zo A) := by
  have key : A.rowN = A.colN → ∀ M : List α, M.length = A.rowN →
      (∃ d, A.diag zo order ⟨M, 0, M.length⟩ = .ok d ∧ d.buf.length = A.rowN) ∧
      (do let d ← A.diag zo order ⟨M, 0, M.length⟩; .ok d.buf : Res (List α)) = (ofCrs order zo A).diag := by
    intro hsq M hM
    have hm : min A.rowN A.colN = A.rowN := by omega
    have hok : ∀ M : List α, M.length = A.rowN → (⟨M, 0, A.rowN⟩ : Win α).Ok := by
      intro M hM; simp [Win.Ok, hM]
    obtain ⟨d, h1, h2, h3⟩ := C19_crs_diag_partial h (zo := zo) (order := order)
      (by rw [hm]; exact hz) (by rw [hm]; exact ho) (hok M hM) rfl hm.symm
    obtain ⟨e, e1, e2, e3⟩ := C19_crs_diag_partial h (zo := zo) (order := order)
      (by rw [hm]; exact hz) (by rw [hm]; exact ho) (hok (List.replicate A.rowN 0) (by simp)) rfl hm.symm
    rw [hM]
    refine ⟨⟨d, h1, h2.len.trans hM⟩, ?_⟩
    show _ = (do let d ← A.diag zo order ⟨List.replicate A.rowN 0, 0, A.rowN⟩; .ok d.buf : Res (List α))
    rw [h1, e1, Res.ok_bind, Res.ok_bind]
    exact congrArg _ (bufs_eq h2 e2 rfl rfl (by simp [hM]) _ (hM.trans hm.symm) h3 e3)
  refine ⟨fun hsq M hM => (key hsq M hM).2, fun hsq d hd => ?_⟩
  obtain ⟨⟨d', h1, h2⟩, h3⟩ := key hsq (List.replicate A.rowN 0) (by simp)
  change (ofCrs order zo A).diag = _ at hd
  rw [← h3, h1] at hd
  cases hd
  exact h2

/-- **C98, Dense**: `diag` of a square Dense matrix overwrites all of the target, for all schedules. -/
theorem C98_dense (N : Num α) {A : Dense α} (h : A.WF) (h0 : A.first = 0) {f : Nat → Nat → α}
    (hf : A.Reads f) {order : List Nat} (ho : Order order A.rowN) :
    Overwrites (smatDense N order A) := by
  have key : A.rowN = A.colN → ∀ M : List α, M.length = A.rowN →
      (∃ d, A.diag order ⟨M, 0, M.length⟩ = .ok d ∧ d.buf.length = A.rowN) ∧
      (do let d ← A.diag order ⟨M, 0, M.length⟩; .ok d.buf : Res (List α)) = (ofDense order A).diag := by
    intro hsq M hM
    have hm : min A.rowN A.colN = A.rowN := by omega
    have hok : ∀ M : List α, M.length = A.rowN → (⟨M, 0, A.rowN⟩ : Win α).Ok := by
      intro M hM; simp [Win.Ok, hM]
    obtain ⟨d, h1, h2, h3⟩ := (C19_dense_partial h h0 hf (hok M hM) rfl (order := order) ho).1 hm.symm
    obtain ⟨e, e1, e2, e3⟩ := (C19_dense_partial h h0 hf (hok (List.replicate A.rowN 0) (by simp)) rfl
      (order := order) ho).1 hm.symm
    rw [hM]
    refine ⟨⟨d, h1, h2.len.trans hM⟩, ?_⟩
    show _ = (do let d ← A.diag order ⟨List.replicate A.rowN 0, 0, A.rowN⟩; .ok d.buf : Res (List α))
    rw [h1, e1, Res.ok_bind, Res.ok_bind]
    exact congrArg _ (bufs_eq h2 e2 rfl rfl (by simp [hM]) _ hM h3 e3)
  refine ⟨fun hsq M hM => (key hsq M hM).2, fun hsq d hd => ?_⟩
  obtain ⟨⟨d', h1, h2⟩, h3⟩ := key hsq (List.replicate A.rowN 0) (by simp)
  change (ofDense order A).diag = _ at hd
  rw [← h3, h1] at hd
  cases hd
  exact h2

end matrices

/-! ### Concrete programs (rational numbers; `sqrt` is the identity) -/

/-- the outputs at the end of a program -/
def outputs (r : Res (World ℚ)) : Option (History ℚ × List (File ℚ)) :=
  match r with
  | .ok w => some (w.cout, w.files)
  | _ => none

theorem outputs_some {r : Res (World ℚ)} {c : History ℚ} {f : List (File ℚ)}
    (h : outputs r = some (c, f)) : ∃ w, r = .ok w ∧ w.cout = c ∧ w.files = f := by
  unfold outputs at h
  split at h
  · rename_i w
    cases h
    exact ⟨w, rfl, rfl, rfl⟩
  · cases h

abbrev nq : Num ℚ := fieldNum id

/-- `[4 1; 1 4]` -/
def m2 : SMat ℚ := smatCrs nq [0, 1] [0, 1] ⟨2, 2, [0, 2, 4], [0, 1, 0, 1], [4, 1, 1, 4], 4, 4, true⟩

/-- `[2 1 0; 1 3 0; 0 0 5]` -/
def m3 : SMat ℚ :=
  smatCrs nq [0, 1, 2] [2, 1, 0] ⟨3, 3, [0, 2, 4, 5], [0, 1, 0, 1, 2], [2, 1, 1, 3, 5], 5, 5, true⟩

theorem m2_overwrites : Overwrites m2 := by
  refine C98_crs nq ?_ ?_ ?_
  · exact { created := rfl, lenV := rfl, nnz_le := by decide, lenP := rfl, ptr_le := by decide,
            lenC := by decide, col_lt := by decide }
  · show Order [0, 1] 2
    unfold Order; decide
  · show Order [0, 1] 2
    unfold Order; decide

/-- `[2 1; 1 3]` -/
def m2' : SMat ℚ := smatCrs nq [0, 1] [0, 1] ⟨2, 2, [0, 2, 4], [0, 1, 0, 1], [2, 1, 1, 3], 4, 4, true⟩

/-- a CG object with a Jacobi preconditioner, used for a system with three unknowns, then with other
settings for one with two unknowns -/
def prog : List (Op ℚ) :=
  [.new .cg, .new .jacobi, .setCreate 0 1, .setApply 0 1, .setTol 0 (1 / 100), .setPrint 0 true,
    .solve 0 m3 [0, 0, 0] [1, 2, 3], .setMaxiter 0 9]

/-- the hypotheses of `C98_precond`, `C98_safe`, `C98_destination` are met by this program and the call
`solve(m2, x, b)` -/
theorem prog_ok : NoCopy prog ∧ (∃ w, World.run nq (fun _ => true) 0 1 {} prog = .ok w ∧ w.cout ≠ []) ∧
    (made prog)[0]? = some .cg ∧ (made prog)[1]? = some .jacobi ∧
    (inForce 0 1 prog 0).create = some 1 ∧ (inForce 0 1 prog 0).apply = some 1 ∧
    (inForce 0 1 prog 0).lib = 0 ∧ (inForce 0 1 prog 0).dest = .stdout ∧ Overwrites m2 := by
  refine ⟨?_, ?_, rfl, rfl, rfl, rfl, rfl, rfl, ?_⟩
  · intro i h
    simp [prog] at h
  · obtain ⟨w, h1, h2, _⟩ := outputs_some (r := World.run nq (fun _ => true) 0 1 {} prog)
      (c := [(1, 237025 / 599076), (2, 20205 / 1203409), (3, 0)]) (f := []) (by decide +kernel)
    exact ⟨w, h1, by rw [h2]; simp⟩
  · exact m2_overwrites

/-- and the second call returns what a first call would return -/
example : ∀ w, World.run nq (fun _ => true) 0 1 {} prog = .ok w →
    seen (w.step nq (fun _ => true) 0 1 (.solve 0 m2 [0, 0] [1, 2])) =
      .ok { status := SUCCESS, x := [2 / 15, 7 / 15], finalIter := 2, finalResid := 0 } := by
  intro w hw
  obtain ⟨h1, _, h3, h4, h5, h6, h7, _, h9⟩ := prog_ok
  rw [C98_precond h1 hw h3 (by decide) (by simp [prog]) h4 (by simp) (by simp [prog]) h7 h5 h6 m2 h9]
  decide +kernel

/-- the hypotheses of `C98_plain` are met by a BiCGSTAB object in its third call, after one that failed
to converge and one that threw -/
example : let ops : List (Op ℚ) := [.new .bicg, .setMaxiter 0 1, .solve 0 m3 [0, 0, 0] [1, 2, 3],
      .setMaxiter 0 9, .setResidMethod 0 1, .solve 0 m3 [0, 0, 0] [1, 2, 3], .setResidMethod 0 0,
      .setTol 0 (1 / 100)]
    NoCopy ops ∧ (∃ w, World.run nq (fun _ => true) 0 1 {} ops = .ok w) ∧
    (made ops)[0]? = some .bicg ∧ (inForce 0 1 ops 0).lib = 0 ∧ (inForce 0 1 ops 0).create = none ∧
    (inForce 0 1 ops 0).apply = none ∧ (inForce 0 1 ops 0).maxiter = 9 := by
  refine ⟨by intro i h; simp at h, ?_, rfl, rfl, rfl, rfl, rfl⟩
  obtain ⟨w, h1, _⟩ := outputs_some (r := World.run nq (fun _ => true) 0 1 {} [.new .bicg,
      .setMaxiter 0 1, .solve 0 m3 [0, 0, 0] [1, 2, 3],
      .setMaxiter 0 9, .setResidMethod 0 1, .solve 0 m3 [0, 0, 0] [1, 2, 3], .setResidMethod 0 0,
      .setTol 0 (1 / 100)]) (c := []) (f := []) (by decide +kernel)
  exact ⟨w, h1⟩

/-- **C98 violated**: `set_rhistory_filename("h")` followed by `set_print_rhistory(true)` does not print to
the file: all lines go to the standard output and the file stays empty. -/
theorem C98_filename_violated : ∃ (ops : List (Op ℚ)) (w : World ℚ), NoCopy ops ∧
    World.run nq (fun _ => true) 0 1 {} ops = .ok w ∧
    ops = [.new .cg, .setFile 0 "h", .setPrint 0 true, .setTol 0 (1 / 100), .solve 0 m2 [0, 0] [1, 2]] ∧
    w.cout = [(1, 5 / 64), (2, 0)] ∧ w.files = [{ name := "h", lines := [], good := true }] := by
  obtain ⟨w, h1, h2, h3⟩ := outputs_some (r := World.run nq (fun _ => true) 0 1 {}
    [.new .cg, .setFile 0 "h", .setPrint 0 true, .setTol 0 (1 / 100), .solve 0 m2 [0, 0] [1, 2]])
    (c := [(1, 5 / 64), (2, 0)]) (f := [{ name := "h", lines := [], good := true }]) (by decide +kernel)
  exact ⟨_, w, by intro i h; simp at h, h1, rfl, h2, h3⟩

/-- in the other order the lines go to the file -/
example : outputs (World.run nq (fun _ => true) 0 1 {}
    [.new .cg, .setPrint 0 true, .setFile 0 "h", .setTol 0 (1 / 100), .solve 0 m2 [0, 0] [1, 2]]) =
    some ([], [{ name := "h", lines := [(1, 5 / 64), (2, 0)], good := true }]) := by
  decide +kernel

/-- **C98 violated**: a solver object that has a history file cannot be copied: when the copy and the
original are destroyed, the stream is deleted twice. (Any numbers, any file name but the empty one.) -/
theorem C98_copy_violated {α : Type} (N : Num α) (opens : String → Bool) (tol0 omega0 : α) (k : Kind)
    (name : String) (hn : name ≠ "") :
    World.run N opens tol0 omega0 {} [.new k, .setFile 0 name, .copy 0, .destroy 1, .destroy 0] =
      .ub "double delete" := by
  have hd : decide (name ≠ "") = true := decide_eq_true hn
  simp [World.run, World.step, World.destroy, World.obj, World.put, hn]

/-- **C98 violated**: with `set_apply_precond` alone the preconditioner is not made for the matrix of the
call: CG with one iteration uses the inverse diagonal that the BiCGSTAB object's call left there. -/
theorem C98_stale_violated : ∃ (ops : List (Op ℚ)) (w : World ℚ), NoCopy ops ∧
    World.run nq (fun _ => true) 0 1 {} ops = .ok w ∧ Overwrites m2 ∧
    (made ops)[0]? = some .cg ∧ (made ops)[1]? = some .jacobi ∧
    (inForce 0 1 ops 0).apply = some 1 ∧ (inForce 0 1 ops 0).create = none ∧
    seen (w.step nq (fun _ => true) 0 1 (.solve 0 m2 [0, 0] [1, 2])) ≠
      single nq .cg ((inForce 0 1 ops 0).cfg nq) m2 (precondOf nq .jacobi 1 m2) [0, 0] [1, 2] := by
  let ops : List (Op ℚ) := [.new .cg, .new .jacobi, .new .cg, .setCreate 2 1, .setApply 2 1,
    .setTol 2 (1 / 100), .solve 2 m2' [0, 0] [1, 2], .setApply 0 1, .setMaxiter 0 1]
  obtain ⟨w, h1, _⟩ := outputs_some (r := World.run nq (fun _ => true) 0 1 {} ops)
    (c := []) (f := []) (by decide +kernel)
  refine ⟨ops, w, by intro i h; simp [ops] at h, h1, m2_overwrites, rfl, rfl, rfl, rfl, ?_⟩
  have h : (World.run nq (fun _ => true) 0 1 {} ops).bind
      (fun w => seen (w.step nq (fun _ => true) 0 1 (.solve 0 m2 [0, 0] [1, 2]))) ≠
      single nq .cg ((inForce 0 1 ops 0).cfg nq) m2 (precondOf nq .jacobi 1 m2) [0, 0] [1, 2] := by
    decide +kernel
  rw [h1] at h
  exact h

/-- **C98 violated**: a registered preconditioner that has been destroyed is used by the next call. -/
theorem C98_dangling_violated {α : Type} (N : Num α) (opens : String → Bool) (tol0 omega0 : α)
    (A : SMat α) (hA : A.mat.row = A.mat.col) (x b : List α) :
    World.run N opens tol0 omega0 {}
      [.new .cg, .new .jacobi, .setCreate 0 1, .setApply 0 1, .destroy 1, .solve 0 A x b] =
      .ub "no such object" := by
  simp [World.run, World.step, World.destroy, World.obj, World.put, World.modify, World.solve,
    Obj.creates, World.create, hA]

end Verif.Solver
