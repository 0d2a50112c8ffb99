import Verif.Model.ResidualDev
import Verif.Props.SolverDev
import Verif.Props.SolverMisc
import Verif.Props.SolverDevMain

/-!
C59 in a GPU build: `get_residual_l2` works for arguments on the device and aborts for arguments on the host.
-/

namespace Verif.Solver.Dev

variable {α : Type}

/-- the state after the scratch vector was made -/
theorem scratch (gpu : Bool) (s : St α) (l : List α) :
    ((s.new .t l).send gpu .t).get .t = l ∧ ((s.new .t l).send gpu .t).on .t = gpu ∧
      ∀ o, o ≠ .t → ((s.new .t l).send gpu .t).get o = s.get o ∧ ((s.new .t l).send gpu .t).on o = s.on o := by
  cases gpu with
  | true =>
    refine ⟨?_, ?_, fun o ho => ?_⟩ <;> simp_all [St.get, St.send, St.new, Function.update]
  | false =>
    refine ⟨?_, ?_, fun o ho => ?_⟩ <;> simp_all [St.get, St.send, St.new, Function.update]

/-- **C59**. With all arguments on the device in a GPU build, or on the host in a build without GPU: the result is that of the host
function on what the user sees (which is the norm of `y - A x`, `C59_residual`). -/
theorem C59_device_partial (N : Num α) {gpu : Bool} (A : MatD α) (s : St α) (zeros : List α)
    (hz : zeros.length = (s.get .x).length)
    (hA : s.on .A = gpu) (hx : s.on .x = gpu) (hb : s.on .b = gpu)
    (hmv : ∀ t, A.mv (s.get .A) (s.get .x) = .ok t → t.length = (s.get .x).length) :
    residualL2 N gpu A zeros s = Solver.residualL2 N (A.at_ (s.get .A)) (s.get .x) (s.get .b) := by
  obtain ⟨h1, h2, h3⟩ := scratch gpu s zeros
  unfold residualL2 Solver.residualL2
  dsimp only
  rw [h1, hz, (h3 .x (by decide)).1]
  generalize hs : (s.new .t zeros).send gpu .t = s1 at *
  have e1 : (A.at_ (s.get .A)).row = A.row := rfl
  have e2 : (A.at_ (s.get .A)).col = A.col := rfl
  have e3 : (A.at_ (s.get .A)).mv = A.mv (s.get .A) := rfl
  rw [e1, e2, e3]
  congr 1
  funext _
  congr 1
  funext _
  unfold matvec sub call
  rw [same_ok (side := gpu) (by
    intro o ho
    simp only [List.mem_cons, List.not_mem_nil, or_false] at ho
    rcases ho with rfl | rfl | rfl
    · rw [(h3 .A (by decide)).2, hA]
    · rw [(h3 .x (by decide)).2, hx]
    · exact h2), Res.ok_bind, (h3 .A (by decide)).1, (h3 .x (by decide)).1]
  cases hm : A.mv (s.get .A) (s.get .x) with
  | ok t =>
    simp only [Res.ok_bind]
    have hu := put_upd s1 .t t
    rw [same_ok (side := gpu) (by
      intro o ho
      simp only [List.mem_cons, List.not_mem_nil, or_false] at ho
      rcases ho with rfl | rfl | rfl
      · rw [hu.on, (h3 .b (by decide)).2, hb]
      · rw [hu.on]; exact h2
      · rw [hu.on]; exact h2), Res.ok_bind]
    rw [hu.get, hu.get, if_neg (by decide), if_pos rfl, (h3 .b (by decide)).1, hmv t hm]
    cases N.vsub (s.get .b) t (s.get .x).length with
    | ok u =>
      simp only [Res.ok_bind]
      rw [(put_upd (s1.put .t t) .t u).get, if_pos rfl]
    | throw m => rfl
    | abort m => rfl
    | ub m => rfl
  | throw m => rfl
  | abort m => rfl
  | ub m => rfl

/-- **C59**, violated: in a GPU build with the arguments on the host the call aborts, for every square matrix: the scratch
vector is on the device. -/
theorem C59_gpu_host_violated (N : Num α) (A : MatD α) (s : St α) (zeros : List α)
    (hz : zeros.length = (s.get .x).length) (hr : A.row = (s.get .x).length) (hc : A.col = (s.get .x).length)
    (hA : s.on .A = false) : residualL2 N true A zeros s = .abort "assert" := by
  obtain ⟨h1, h2, h3⟩ := scratch true s zeros
  unfold residualL2
  dsimp only
  rw [h1, hz, (h3 .x (by decide)).1]
  generalize hs : (s.new .t zeros).send true .t = s1 at *
  rw [cassert_decide hr, Res.ok_bind, cassert_decide hc, Res.ok_bind]
  unfold matvec call same
  have : ([V.x, V.t].all fun o' => s1.on o' == s1.on .A) = false := by
    simp [h2, (h3 .A (by decide)).2, hA]
  dsimp only
  rw [this]
  rfl

/-- the hypotheses can be met: the residual of (1, 0) for (2 1; 1 2) x = (1, 0) -/
example : residualL2 (Verif.Spec.fieldNum id) true exAD [0, 0] (exS true [2, 1, 1, 2]) =
      Solver.residualL2 (Verif.Spec.fieldNum id) (exAD.at_ ((exS true [2, 1, 1, 2]).get .A)) ((exS true [2, 1, 1, 2]).get .x)
        ((exS true [2, 1, 1, 2]).get .b) ∧
    residualL2 (Verif.Spec.fieldNum id) true exAD [0, 0] (exS false [2, 1, 1, 2]) = .abort "assert" :=
  ⟨C59_device_partial _ _ _ _ rfl rfl rfl rfl (fun t ht => by
      have : exAD.mv ((exS true [2, 1, 1, 2]).get .A) ((exS true [2, 1, 1, 2]).get .x) = .ok t := ht
      have h2 : ∃ a b, exAD.mv ((exS true [2, 1, 1, 2]).get .A) ((exS true [2, 1, 1, 2]).get .x) = .ok [a, b] := ⟨_, _, rfl⟩
      obtain ⟨a, b, h2⟩ := h2
      rw [h2] at this
      cases this
      rfl),
    C59_gpu_host_violated _ _ _ _ rfl rfl rfl rfl⟩

end Verif.Solver.Dev
