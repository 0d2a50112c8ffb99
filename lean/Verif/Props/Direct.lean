import Verif.Lemmas.Lapack
import Verif.Props.Matmul
import Mathlib.Data.Rat.Defs
import Mathlib.Algebra.Order.Field.Rat
import Mathlib.Tactic.IntervalCases
import Mathlib.Tactic.Linarith
import Mathlib.Tactic.NormNum

/-!
C67: `equation::LU` on a dense matrix solves the system, or reports breakdown exactly when the matrix is
singular. C68: `equation::Cholesky` does the same for symmetric matrices. Both are stated for every
LAPACK that meets the contract in `Verif/Spec/LapackSpec.lean`; `exists_lib` shows that there is one.
-/

namespace Verif.Lapack

variable {α : Type} [Field α]

/-- the elements of a vector, as the user reads them -/
def VReads (v : Vec α) (n : Nat) (f : Nat → α) : Prop := v.nnz = n ∧ ∀ i, i < n → v.get i = .ok (f i)

/-- What the user expects from a direct solver for `A x = b`: the call returns; if `A` is
nonsingular the result is `SUCCESS` and the vector is the solution, otherwise it is `BREAKDOWN`. -/
def Solved (n : Nat) (A : Nat → Nat → α) (b : Nat → α)
    (r : Res (Int × Dense α × Vec α)) : Prop :=
  ∃ ret A' x', r = .ok (ret, A', x') ∧
    (det n A ≠ 0 → ret = success ∧
      ∃ xf, VReads x' n xf ∧ ∀ i, i < n → Spec.mulVec n A xf i = b i) ∧
    (det n A = 0 → ret = breakdown)

section helpers

omit [Field α] in
theorem touch_ok {k l : Nat} (h : k ≤ l) : touch k l = .ok () := if_pos h

omit [Field α] in
theorem copyVec_ok {b x : Vec α} {n : Nat} (hb : b.WF) (hx : x.WF) (hbn : b.nnz = n)
    (hxn : x.nnz = n) :
    ∃ V, copyVec b x = .ok { x with val := V } ∧ V.length = x.val.length ∧
      ∀ i, i < n → V[i]? = b.val[i]? := by
  have hbl := hb.lenV
  have hxl := hx.lenV
  have hb1 := hb.nnz_le
  have hx1 := hx.nnz_le
  have key : Res.Sat (forN x.nnz (fun i c => do
      let v ← rd b.val (b.first + i)
      wr c (x.first + i) v) x.val)
      (fun V => V.length = x.val.length ∧ ∀ i, i < x.nnz → V[i]? = b.val[i]?) := by
    apply forN_sat (fun i (c : List α) => c.length = x.val.length ∧ ∀ k, k < i → c[k]? = b.val[k]?)
    · exact ⟨rfl, fun k hk => absurd hk (by omega)⟩
    · intro i c hi ⟨h1, h2⟩
      have hbi : i < b.val.length := by omega
      rw [hb.first0, hx.first0, Nat.zero_add, rd_ok hbi, Res.ok_bind, wr_ok (by omega)]
      refine Res.sat_ok.mpr ⟨by simpa using h1, fun k hk => ?_⟩
      by_cases hki : k = i
      · subst hki
        rw [List.getElem?_set_self (by omega), List.getElem?_eq_getElem hbi]
      · rw [List.getElem?_set_ne (by omega)]
        exact h2 k (by omega)
  obtain ⟨V, hV, h1, h2⟩ := key
  refine ⟨V, ?_, h1, fun i hi => h2 i (by omega)⟩
  unfold copyVec
  rw [cassert_decide (by omega), Res.ok_bind, hV, Res.ok_bind]

/-- a square row-major matrix read in column-major order is the transposed matrix -/
theorem cm_reads {A : Dense α} (hA : A.WF) (h0 : A.first = 0) {n : Nat} (hr : A.rowN = n)
    (hc : A.colN = n) {f : Nat → Nat → α} (hf : A.Reads f) {i j : Nat} (hi : i < n) (hj : j < n) :
    cm A.val n i j = f j i := by
  have := hf.getElem? hA (i := j) (j := i) (by omega) (by omega)
  rw [h0, hc, Nat.zero_add, Nat.add_comm] at this
  simp [cm, List.getD, this]

omit [Field α] in
theorem extent_sq {A : Dense α} (hA : A.WF) {n : Nat} (hr : A.rowN = n)
    (hc : A.colN = n) : extent n n n ≤ A.val.length := by
  have h1 := hA.lenV
  have h2 := hA.nnz_eq
  have h3 := hA.window
  rw [hr, hc] at h2
  unfold extent
  split
  · omega
  · have : (n - 1) * n + n = n * n := by
      obtain ⟨m, rfl⟩ : ∃ m, n = m + 1 := ⟨n - 1, by omega⟩
      rw [Nat.add_sub_cancel, ← Nat.succ_mul]
    omega

omit [Field α] in
theorem extent_one (n ld : Nat) : extent n 1 ld = n := by
  unfold extent
  split <;> omega

theorem cm_col0 {b : List α} {ld i : Nat} {v : α} (h : b[i]? = some v) : cm b ld i 0 = v := by
  simp [cm, List.getD, h]

omit [Field α] in
theorem overwrite_replicate {β : Type} {n : Nat} {z : β} {new : List β} (h : new.length = n) :
    overwrite (List.replicate n z) new = new := by
  unfold overwrite
  rw [List.drop_of_length_le (by simp [h]), List.append_nil]

end helpers

/-- factorisation and solution, as both overloads of `LU::solve` do it -/
theorem lu_core {L : Lib α} (hL : L.LUOk) {A : Dense α} (hA : A.WF) (h0 : A.first = 0) {n : Nat}
    (hn : 0 < n) (hr : A.rowN = n) (hc : A.colN = n) {f : Nat → Nat → α} (hf : A.Reads f)
    {x : Vec α} (hx0 : x.first = 0) (hxn : x.nnz = n) (hxl : n ≤ x.val.length) {b : Nat → α}
    (hb : ∀ i, i < n → x.val[i]? = some (b i)) :
    Solved n f b (LU.solve2 L A x) := by
  have hext := extent_sq hA hr hc
  have hF := hL.getrf n n A.val n hext
  have hmax : max 1 n ≤ n := by omega
  obtain ⟨hplen, hppos⟩ := hF.pivots hmax
  rw [Nat.min_self] at hplen
  have hfac := hF.factors hmax
  obtain ⟨hi0, hinfo⟩ := hF.info hmax
  rw [Nat.min_self] at hinfo
  have hp : PivotsIn 0 n (L.getrf n n A.val n).2.1 := by
    intro k p hk
    have := hppos k p hk
    omega
  have hS := hL.getrs true n 1 (L.getrf n n A.val n).1 n (L.getrf n n A.val n).2.1 x.val n
    (by rw [hF.length]; exact hext) (by rw [extent_one]; exact hxl) (by omega)
  have hdet : det n f ≠ 0 ↔ ∀ k, k < n → cm (L.getrf n n A.val n).1 n k k ≠ 0 := by
    rw [← det_ne_zero_iff hp hfac, ← det_transpose]
    have : det n (cm A.val n) = det n (fun i j => f j i) := by
      unfold det
      congr 1
      ext i j
      exact cm_reads hA h0 hr hc hf i.2 j.2
    rw [this]
  have hrun : LU.solve2 L A x = .ok
      (if (L.getrf n n A.val n).2.2 ≠ 0 then breakdown else success,
        { A with val := (L.getrf n n A.val n).1 },
        { x with val := (L.getrs true n 1 (L.getrf n n A.val n).1 n (L.getrf n n A.val n).2.1
                    x.val n).1 }) := by
    unfold LU.solve2 getrf getrs
    simp only [hr, hc, Nat.min_self]
    rw [touch_ok hext, Res.ok_bind, touch_ok (by simp), Res.ok_bind]
    simp only [Res.ok_bind, hr, hc]
    rw [overwrite_replicate hplen, touch_ok (by rw [hF.length]; exact hext), Res.ok_bind,
      touch_ok (by omega), Res.ok_bind, touch_ok (by rw [extent_one]; exact hxl), Res.ok_bind]
    simp only [Res.ok_bind]
    rw [if_neg (by rw [hS.info hmax hmax]; simp)]
  refine ⟨_, _, _, hrun, ?_, ?_⟩
  · intro hd
    have hdiag := hdet.mp hd
    have hz := hinfo.mpr hdiag
    refine ⟨by rw [if_neg (by rw [hz]; simp)], ?_⟩
    refine ⟨fun j => cm (L.getrs true n 1 (L.getrf n n A.val n).1 n (L.getrf n n A.val n).2.1
      x.val n).1 n j 0, ⟨hxn, ?_⟩, ?_⟩
    · intro i hi
      have hlt : i < (L.getrs true n 1 (L.getrf n n A.val n).1 n (L.getrf n n A.val n).2.1
          x.val n).1.length := by rw [hS.length]; omega
      unfold Vec.get
      simp only [hx0, Nat.zero_add]
      rw [rd_ok hlt]
      simp [cm, List.getD, List.getElem?_eq_getElem hlt]
    · intro i hi
      have := hS.solves hmax hmax hdiag hplen
        (fun k p hk => by have := hp k p hk; omega) (cm A.val n) hfac 0 (by omega) i hi
      rw [cm_col0 (hb i hi)] at this
      rw [← this]
      refine mulVec_congr (fun j hj => ?_) (fun _ _ => rfl)
      simp only [op, if_true]
      exact (cm_reads hA h0 hr hc hf hj hi).symm
  · intro hd
    have hz : (L.getrf n n A.val n).2.2 ≠ 0 := fun h => hdet.mpr (hinfo.mp h) hd
    rw [if_pos hz]

/-- **C67** (in-place overload). For every square dense matrix `A` and right-hand side in `xb`:
`LU::solve(A, xb)` returns; `A x = b` holds for the result and `SUCCESS` is returned if `A` is
nonsingular, `BREAKDOWN` is returned if it is singular. -/
theorem C67_lu_inplace {L : Lib α} (hL : L.LUOk) {A : Dense α} (hA : A.WF) (h0 : A.first = 0)
    {n : Nat} (hn : 0 < n) (hr : A.rowN = n) (hc : A.colN = n) {f : Nat → Nat → α} (hf : A.Reads f)
    {xb : Vec α} (hx : xb.WF) {b : Nat → α} (hb : VReads xb n b) :
    Solved n f b (LU.solve2 L A xb) := by
  have hl := hx.lenV
  have hle := hx.nnz_le
  have hb1 := hb.1
  refine lu_core hL hA h0 hn hr hc hf hx.first0 hb1 (by omega) ?_
  intro i hi
  have := hb.2 i hi
  rwa [Vec.get, hx.first0, Nat.zero_add, rd_eq_ok] at this

/-- **C67**. For every square dense matrix `A`, right-hand side `b` and result vector `x` of matching
sizes, whatever `x` held before. -/
theorem C67_lu_solve {L : Lib α} (hL : L.LUOk) {A : Dense α} (hA : A.WF) (h0 : A.first = 0)
    {n : Nat} (hn : 0 < n) (hr : A.rowN = n) (hc : A.colN = n) {f : Nat → Nat → α} (hf : A.Reads f)
    {x b : Vec α} (hx : x.WF) (hxn : x.nnz = n) (hbw : b.WF) {bf : Nat → α} (hb : VReads b n bf) :
    Solved n f bf (LU.solve L A x b) := by
  obtain ⟨V, hV, hVl, hVe⟩ := copyVec_ok hbw hx hb.1 hxn
  have hl := hx.lenV
  have hle := hx.nnz_le
  have : LU.solve L A x b = LU.solve2 L A { x with val := V } := by
    unfold LU.solve LU.solve2
    rw [hV, Res.ok_bind]
  rw [this]
  refine lu_core (x := { x with val := V }) hL hA h0 hn hr hc hf hx.first0 hxn (by rw [hVl]; omega) ?_
  intro i hi
  have := hb.2 i hi
  rw [Vec.get, hbw.first0, Nat.zero_add, rd_eq_ok] at this
  simp only
  rw [hVe i hi, this]

/-- symmetric factorisation and solution; `A` is read only below and on its diagonal -/
theorem cholesky_core {L : Lib α} (hL : L.SyOk) {A : Dense α} (hA : A.WF) (h0 : A.first = 0) {n : Nat}
    (hn : 0 < n) (hr : A.rowN = n) (hc : A.colN = n) {f : Nat → Nat → α} (hf : A.Reads f)
    {x : Vec α} (hx0 : x.first = 0) (hxn : x.nnz = n) (hxl : n ≤ x.val.length) {b : Nat → α}
    (hb : ∀ i, i < n → x.val[i]? = some (b i)) :
    Solved n (fun i j => if j ≤ i then f i j else f j i) b (Cholesky.solve2 L A x) := by
  have hext := extent_sq hA hr hc
  have hF := hL true n A.val n n hext
  have hmax : max 1 n ≤ n := by omega
  have hplen := hF.pivots hmax hn
  obtain ⟨hi0, hinfo⟩ := hF.info hmax hn
  have hsym : ∀ i j, i < n → j < n →
      sym true A.val n i j = if j ≤ i then f i j else f j i := by
    intro i j hi hj
    unfold sym
    rw [if_pos rfl]
    by_cases hij : i ≤ j
    · rw [if_pos hij, cm_reads hA h0 hr hc hf hi hj]
      by_cases hji : j ≤ i
      · have : i = j := by omega
        subst this; rw [if_pos hji]
      · rw [if_neg hji]
    · rw [if_neg hij, if_pos (by omega), cm_reads hA h0 hr hc hf hj hi]
  have hdet : det n (sym true A.val n) = det n (fun i j => if j ≤ i then f i j else f j i) := by
    unfold det
    congr 1
    ext i j
    exact hsym i j i.2 j.2
  have hrun : Cholesky.solve2 L A x = .ok
      (if (L.sytrf true n A.val n n).2.2 ≠ 0 then breakdown else success,
        { A with val := (L.sytrf true n A.val n n).1 },
        { x with val := (L.sytrs true n 1 (L.sytrf true n A.val n n).1 n
                    (L.sytrf true n A.val n n).2.1 x.val n).1 }) := by
    unfold Cholesky.solve2 sytrf sytrs
    simp only [hr, hc, Nat.min_self]
    rw [touch_ok hext, Res.ok_bind, touch_ok (by simp), Res.ok_bind]
    simp only [Res.ok_bind]
    rw [overwrite_replicate hplen, touch_ok (by rw [hF.length]; exact hext), Res.ok_bind,
      touch_ok (by omega), Res.ok_bind, touch_ok (by rw [extent_one]; exact hxl), Res.ok_bind]
    simp only [Res.ok_bind]
    have := hF.sInfo 1 x.val n hmax hmax
    rw [if_neg (by rw [this]; simp)]
  rw [hdet] at hinfo
  refine ⟨_, _, _, hrun, ?_, ?_⟩
  · intro hd
    have hz := hinfo.mpr hd
    refine ⟨by rw [if_neg (by rw [hz]; simp)], ?_⟩
    refine ⟨fun j => cm (L.sytrs true n 1 (L.sytrf true n A.val n n).1 n
                    (L.sytrf true n A.val n n).2.1 x.val n).1 n j 0, ⟨hxn, ?_⟩, ?_⟩
    · intro i hi
      have hlt : i < (L.sytrs true n 1 (L.sytrf true n A.val n n).1 n
                    (L.sytrf true n A.val n n).2.1 x.val n).1.length := by
        have := hF.sLength 1 x.val n
        omega
      unfold Vec.get
      simp only [hx0, Nat.zero_add]
      rw [rd_ok hlt]
      simp [cm, List.getD, List.getElem?_eq_getElem hlt]
    · intro i hi
      have := hF.sSolves hmax hn hz 1 x.val n hmax (by rw [extent_one]; exact hxl) 0 (by omega) i hi
      rw [cm_col0 (hb i hi)] at this
      rw [← this]
      exact mulVec_congr (fun j hj => (hsym i j hi hj).symm) (fun _ _ => rfl)
  · intro hd
    have hz : (L.sytrf true n A.val n n).2.2 ≠ 0 := fun h => hinfo.mp h hd
    rw [if_pos hz]

theorem Solved.congr {n : Nat} {A B : Nat → Nat → α} {b : Nat → α}
    {r : Res (Int × Dense α × Vec α)} (h : ∀ i j, i < n → j < n → A i j = B i j)
    (hs : Solved n A b r) : Solved n B b r := by
  have hd : det n A = det n B := by
    unfold det
    congr 1
    ext i j
    exact h i j i.2 j.2
  obtain ⟨ret, A', x', h1, h2, h3⟩ := hs
  rw [hd] at h2 h3
  refine ⟨ret, A', x', h1, fun hd => ?_, h3⟩
  obtain ⟨h4, xf, h5, h6⟩ := h2 hd
  refine ⟨h4, xf, h5, fun i hi => ?_⟩
  rw [← h6 i hi]
  exact mulVec_congr (fun j hj => (h i j hi hj).symm) (fun _ _ => rfl)

/-- **C68** (in-place overload). For every symmetric dense matrix, definite or not. -/
theorem C68_cholesky_inplace {L : Lib α} (hL : L.SyOk) {A : Dense α} (hA : A.WF) (h0 : A.first = 0)
    {n : Nat} (hn : 0 < n) (hr : A.rowN = n) (hc : A.colN = n) {f : Nat → Nat → α} (hf : A.Reads f)
    (hsym : ∀ i j, i < n → j < n → f i j = f j i)
    {xb : Vec α} (hx : xb.WF) {b : Nat → α} (hb : VReads xb n b) :
    Solved n f b (Cholesky.solve2 L A xb) := by
  have hl := hx.lenV
  have hle := hx.nnz_le
  have hb1 := hb.1
  refine Solved.congr (fun i j hi hj => ?_)
    (cholesky_core hL hA h0 hn hr hc hf hx.first0 hb1 (by omega) (fun i hi => ?_))
  · split
    · rfl
    · exact hsym j i hj hi
  · have := hb.2 i hi
    rwa [Vec.get, hx.first0, Nat.zero_add, rd_eq_ok] at this

/-- **C68**. `Cholesky::solve(A, x, b)` for every symmetric dense matrix. -/
theorem C68_cholesky_solve {L : Lib α} (hL : L.SyOk) {A : Dense α} (hA : A.WF) (h0 : A.first = 0)
    {n : Nat} (hn : 0 < n) (hr : A.rowN = n) (hc : A.colN = n) {f : Nat → Nat → α} (hf : A.Reads f)
    (hsym : ∀ i j, i < n → j < n → f i j = f j i)
    {x b : Vec α} (hx : x.WF) (hxn : x.nnz = n) (hbw : b.WF) {bf : Nat → α} (hb : VReads b n bf) :
    Solved n f bf (Cholesky.solve L A x b) := by
  obtain ⟨V, hV, hVl, hVe⟩ := copyVec_ok hbw hx hb.1 hxn
  have hl := hx.lenV
  have hle := hx.nnz_le
  have : Cholesky.solve L A x b = Cholesky.solve2 L A { x with val := V } := by
    unfold Cholesky.solve Cholesky.solve2
    rw [hV, Res.ok_bind]
  rw [this]
  refine Solved.congr (fun i j hi hj => ?_)
    (cholesky_core (x := { x with val := V }) hL hA h0 hn hr hc hf hx.first0 hxn
      (by rw [hVl]; omega) (fun i hi => ?_))
  · split
    · rfl
    · exact hsym j i hj hi
  · have := hb.2 i hi
    rw [Vec.get, hbw.first0, Nat.zero_add, rd_eq_ok] at this
    simp only
    rw [hVe i hi, this]

/-- **C68**, for an `A` that is not symmetric: the upper triangle of `A` is not read; the system
that is solved is the one of the lower triangle, mirrored. -/
theorem C68_cholesky_lower {L : Lib α} (hL : L.SyOk) {A : Dense α} (hA : A.WF) (h0 : A.first = 0)
    {n : Nat} (hn : 0 < n) (hr : A.rowN = n) (hc : A.colN = n) {f : Nat → Nat → α} (hf : A.Reads f)
    {xb : Vec α} (hx : xb.WF) {b : Nat → α} (hb : VReads xb n b) :
    Solved n (fun i j => if j ≤ i then f i j else f j i) b (Cholesky.solve2 L A xb) := by
  have hl := hx.lenV
  have hle := hx.nnz_le
  have hb1 := hb.1
  refine cholesky_core hL hA h0 hn hr hc hf hx.first0 hb1 (by omega) (fun i hi => ?_)
  have := hb.2 i hi
  rwa [Vec.get, hx.first0, Nat.zero_add, rd_eq_ok] at this

/-! ### What the checks do not cover -/

/-- A right-hand side shorter than the matrix is not rejected: LAPACK writes beyond its buffer. -/
theorem C67_short_rhs_ub {L : Lib α} (hL : L.LUOk) {A : Dense α} (hA : A.WF) {n : Nat} (hn : 0 < n)
    (hr : A.rowN = n) (hc : A.colN = n) {xb : Vec α} (hx : xb.val.length < n) :
    ∃ m, LU.solve2 L A xb = .ub m := by
  have hext := extent_sq hA hr hc
  have hF := hL.getrf n n A.val n hext
  have hmax : max 1 n ≤ n := by omega
  obtain ⟨hplen, hppos⟩ := hF.pivots hmax
  rw [Nat.min_self] at hplen
  refine ⟨"LAPACK: out of bounds", ?_⟩
  unfold LU.solve2 getrf getrs
  simp only [hr, hc, Nat.min_self]
  rw [touch_ok hext, Res.ok_bind, touch_ok (by simp), Res.ok_bind]
  simp only [Res.ok_bind, hr, hc]
  rw [overwrite_replicate hplen, touch_ok (by rw [hF.length]; exact hext), Res.ok_bind,
    touch_ok (by omega), Res.ok_bind, touch, if_neg (by rw [extent_one]; omega)]
  rfl

/-- The empty system: LAPACK is called with leading dimension 0 and rejects it, `LU` reports
`BREAKDOWN` although the (empty) system is solvable. -/
theorem C67_empty_violated {L : Lib α} (hL : L.LUOk) {A : Dense α} (hr : A.rowN = 0)
    (hc : A.colN = 0) (xb : Vec α) :
    (∃ A' x', LU.solve2 L A xb = .ok (breakdown, A', x')) ∧ ∀ f : Nat → Nat → α, det 0 f ≠ 0 := by
  have hF := hL.getrf 0 0 A.val 0 (by simp [extent])
  have h1 := (hF.illegal (by omega)).1
  have hl := hF.length
  refine ⟨?_, fun f => by simp [det]⟩
  unfold LU.solve2 getrf getrs
  simp only [hr, hc, Nat.min_self, extent, true_or, if_true]
  rw [touch_ok (Nat.zero_le _), Res.ok_bind, touch_ok (by simp), Res.ok_bind]
  simp only [Res.ok_bind, true_or, if_true]
  rw [touch_ok (Nat.zero_le _), Res.ok_bind, touch_ok (Nat.zero_le _), Res.ok_bind,
    touch_ok (Nat.zero_le _), Res.ok_bind]
  have hne : (L.getrf 0 0 A.val 0).2.2 ≠ 0 := by omega
  simp only [Res.ok_bind, hne, ne_eq, not_false_eq_true, if_true, ite_self]
  exact ⟨_, _, rfl⟩

/-- A matrix that is not square is not rejected: for the 1 × 2 matrix `(1 2)` every LAPACK leads to
`SUCCESS`. -/
theorem C67_rectangular_violated {L : Lib ℚ} (hL : L.LUOk) :
    ∃ A' x', LU.solve L ⟨1, 2, [1, 2], 2, 2, 0, true⟩ ⟨[0], 1, 1, 0, true⟩ ⟨[3], 1, 1, 0, true⟩ =
      .ok (success, A', x') := by
  have hF := hL.getrf 1 2 [1, 2] 1 (by decide)
  obtain ⟨hpl, hpv⟩ := hF.pivots (by decide)
  have hfac := hF.factors (by decide)
  obtain ⟨hi0, hinfo⟩ := hF.info (by decide)
  have hlen := hF.length
  have hS := fun b => hL.getrs true 1 1 (L.getrf 1 2 [1, 2] 1).1 2 (L.getrf 1 2 [1, 2] 1).2.1 b 1
  obtain ⟨p, hp⟩ : ∃ p, (L.getrf 1 2 [1, 2] 1).2.1 = [p] := List.length_eq_one_iff.mp hpl
  have hp1 : p = 1 := by
    have := hpv 0 p (by rw [hp]; rfl)
    omega
  subst hp1
  have h00 := hfac 0 0 (by decide) (by decide)
  rw [hp] at h00
  have hid : rowPerm 0 [1] 0 = 0 := by simp [rowPerm]
  rw [hid] at h00
  have hu : cm (L.getrf 1 2 [1, 2] 1).1 1 0 0 = 1 := by
    have e : cm ([1, 2] : List ℚ) 1 0 0 = 1 := by simp [cm]
    rw [e] at h00
    simpa [lower, upper] using h00.symm
  have hz : (L.getrf 1 2 [1, 2] 1).2.2 = 0 := by
    apply hinfo.mpr
    intro k hk
    have : k = 0 := by
      have : min 1 2 = 1 := by decide
      omega
    subst this
    rw [hu]
    exact one_ne_zero
  have hc : copyVec (α := ℚ) ⟨[3], 1, 1, 0, true⟩ ⟨[0], 1, 1, 0, true⟩ = .ok ⟨[3], 1, 1, 0, true⟩ := by
    rfl
  unfold LU.solve
  rw [hc, Res.ok_bind]
  unfold getrf getrs
  simp only
  rw [touch_ok (by decide), Res.ok_bind, touch_ok (by decide), Res.ok_bind]
  simp only [Res.ok_bind]
  have hov : overwrite (List.replicate (min 1 2) 0) (L.getrf 1 2 [1, 2] 1).2.1 = [1] := by
    rw [hp]; rfl
  rw [hov, touch_ok (by rw [hlen]; decide), Res.ok_bind, touch_ok (by decide), Res.ok_bind,
    touch_ok (by decide), Res.ok_bind]
  simp only [Res.ok_bind]
  have hS' := (hS [3] (by rw [hlen]; decide) (by decide) (by rw [hp]; decide)).info (by decide)
    (by decide)
  rw [hp] at hS'
  rw [if_neg (by rw [hS']; simp), if_neg (by rw [hz]; simp)]
  exact ⟨_, _, rfl⟩

/-- Symmetry is not checked: for `A = (1 1; 0 1)`, `b = (1, 1)` every LAPACK leads to `SUCCESS` with an
`x` that does not solve `A x = b`. -/
theorem C68_nonsymmetric_violated {L : Lib ℚ} (hL : L.SyOk) :
    ∃ A' x', Cholesky.solve2 L ⟨2, 2, [1, 1, 0, 1], 4, 4, 0, true⟩ ⟨[1, 1], 2, 2, 0, true⟩ =
        .ok (success, A', x') ∧
      ∃ xf, VReads x' 2 xf ∧
        ¬ ∀ i, i < 2 → Spec.mulVec 2 (fun i j => if i = 1 ∧ j = 0 then 0 else 1) xf i = 1 := by
  obtain ⟨ret, A', x', h1, h2, _⟩ := C68_cholesky_lower hL
    (A := ⟨2, 2, [1, 1, 0, 1], 4, 4, 0, true⟩) ⟨rfl, rfl, by decide⟩ rfl (n := 2) (by decide) rfl rfl
    (f := fun i j => if i = 1 ∧ j = 0 then 0 else 1)
    (by
      intro i j hi hj
      have hi : i < 2 := hi
      have hj : j < 2 := hj
      interval_cases i <;> interval_cases j <;> rfl)
    (xb := ⟨[1, 1], 2, 2, 0, true⟩) ⟨rfl, rfl, by decide, rfl⟩ (b := fun _ => 1)
    ⟨rfl, by intro i hi; interval_cases i <;> rfl⟩
  obtain ⟨hret, xf, hx, hsol⟩ := h2 (by simp [det, Matrix.det_fin_two])
  subst hret
  refine ⟨A', x', h1, xf, hx, fun hall => ?_⟩
  have a0 := hsol 0 (by decide)
  have a1 := hsol 1 (by decide)
  have b0 := hall 0 (by decide)
  simp [Spec.mulVec, Finset.sum_range_succ] at a0 a1 b0
  rw [a0, a1] at b0
  norm_num at b0

/-- A 2 × 2 system that needs a row interchange. -/
def exA : Dense ℚ := ⟨2, 2, [0, 1, 2, 3], 4, 4, 0, true⟩

def exF (i j : Nat) : ℚ := if i = 0 then (if j = 0 then 0 else 1) else (if j = 0 then 2 else 3)

theorem exA_wf : exA.WF := ⟨rfl, rfl, by decide⟩

theorem exA_reads : exA.Reads exF := by
  intro i j hi hj
  have hi : i < 2 := hi
  have hj : j < 2 := hj
  interval_cases i <;> interval_cases j <;> rfl

/-- the hypotheses of C67 can be met, and the solution of the example is the expected one -/
example : ∃ L : Lib ℚ, L.LUOk ∧ ∃ A' x',
    LU.solve L exA ⟨[7, 7], 2, 2, 0, true⟩ ⟨[1, 8], 2, 2, 0, true⟩ = .ok (success, A', x') ∧
      x'.get 0 = .ok (5 / 2) ∧ x'.get 1 = .ok 1 := by
  obtain ⟨L, hL, _⟩ := exists_lib (α := ℚ)
  refine ⟨L, hL, ?_⟩
  obtain ⟨ret, A', x', h1, h2, _⟩ := C67_lu_solve hL exA_wf rfl (n := 2) (by decide) rfl rfl exA_reads
    (x := ⟨[7, 7], 2, 2, 0, true⟩) (b := ⟨[1, 8], 2, 2, 0, true⟩) ⟨rfl, rfl, by decide, rfl⟩ rfl
    ⟨rfl, rfl, by decide, rfl⟩ (bf := fun i => if i = 0 then 1 else 8)
    ⟨rfl, by intro i hi; interval_cases i <;> rfl⟩
  obtain ⟨hret, xf, hx, hsol⟩ := h2 (by simp [det, Matrix.det_fin_two, exF])
  subst hret
  refine ⟨A', x', h1, ?_⟩
  have a0 := hsol 0 (by decide)
  have a1 := hsol 1 (by decide)
  simp [Spec.mulVec, Finset.sum_range_succ, exF] at a0 a1
  rw [hx.2 0 (by decide), hx.2 1 (by decide), a0]
  rw [a0] at a1
  have : xf 0 = 5 / 2 := by linarith
  rw [this]
  exact ⟨rfl, rfl⟩

/-- a singular matrix: `BREAKDOWN` -/
example : ∃ L : Lib ℚ, L.LUOk ∧ ∃ A' x',
    LU.solve2 L ⟨1, 1, [0], 1, 1, 0, true⟩ ⟨[5], 1, 1, 0, true⟩ = .ok (breakdown, A', x') := by
  obtain ⟨L, hL, _⟩ := exists_lib (α := ℚ)
  refine ⟨L, hL, ?_⟩
  obtain ⟨ret, A', x', h1, _, h2⟩ := C67_lu_inplace hL (A := ⟨1, 1, [0], 1, 1, 0, true⟩)
    ⟨rfl, rfl, by decide⟩ rfl (n := 1) (by decide) rfl rfl (f := fun _ _ => 0)
    (by
      intro i j hi hj
      have hi : i < 1 := hi
      have hj : j < 1 := hj
      interval_cases i; interval_cases j; rfl)
    (xb := ⟨[5], 1, 1, 0, true⟩) ⟨rfl, rfl, by decide, rfl⟩ (b := fun _ => 5)
    ⟨rfl, by intro i hi; interval_cases i; rfl⟩
  rw [h2 (by simp [det])] at h1
  exact ⟨A', x', h1⟩

/-- the hypotheses of C68 can be met: the symmetric indefinite matrix `(0 1; 1 0)` -/
example : ∃ L : Lib ℚ, L.SyOk ∧ ∃ A' x',
    Cholesky.solve L ⟨2, 2, [0, 1, 1, 0], 4, 4, 0, true⟩ ⟨[7, 7], 2, 2, 0, true⟩
        ⟨[1, 8], 2, 2, 0, true⟩ = .ok (success, A', x') ∧
      x'.get 0 = .ok 8 ∧ x'.get 1 = .ok 1 := by
  obtain ⟨L, _, hL⟩ := exists_lib (α := ℚ)
  refine ⟨L, hL, ?_⟩
  obtain ⟨ret, A', x', h1, h2, _⟩ := C68_cholesky_solve hL
    (A := ⟨2, 2, [0, 1, 1, 0], 4, 4, 0, true⟩) ⟨rfl, rfl, by decide⟩ rfl (n := 2) (by decide) rfl rfl
    (f := fun i j => if i = j then 0 else 1)
    (by
      intro i j hi hj
      have hi : i < 2 := hi
      have hj : j < 2 := hj
      interval_cases i <;> interval_cases j <;> rfl)
    (by intro i j _ _; simp only [eq_comm])
    (x := ⟨[7, 7], 2, 2, 0, true⟩) (b := ⟨[1, 8], 2, 2, 0, true⟩) ⟨rfl, rfl, by decide, rfl⟩ rfl
    ⟨rfl, rfl, by decide, rfl⟩ (bf := fun i => if i = 0 then 1 else 8)
    ⟨rfl, by intro i hi; interval_cases i <;> rfl⟩
  obtain ⟨hret, xf, hx, hsol⟩ := h2 (by simp [det, Matrix.det_fin_two])
  subst hret
  refine ⟨A', x', h1, ?_⟩
  have a0 := hsol 0 (by decide)
  have a1 := hsol 1 (by decide)
  simp [Spec.mulVec, Finset.sum_range_succ] at a0 a1
  rw [hx.2 0 (by decide), hx.2 1 (by decide), a0, a1]
  exact ⟨rfl, rfl⟩

end Verif.Lapack
