import Verif.Lemmas.LobpcgRitz
import Verif.Spec.DsygvdSpec

/-! LOBPCG as a Rayleigh-Ritz procedure: the projected matrices and what LAPACK says about them. -/

namespace Verif.Lobpcg

open Spec Solver Lapack Matrix

variable {K : Type} [Field K] [LinearOrder K] {n : Nat} {M Q : Matrix (Fin n) (Fin n) K}

theorem take_ofFn {β : Type} {rows : List β} {k : Nat} {g : Fin k → β}
    (h : ∀ a : Fin k, rows[(a : Nat)]? = some (g a)) : rows.take k = List.ofFn g := by
  apply List.ext_getElem?
  intro i
  by_cases hi : i < k
  · rw [List.getElem?_take_of_lt hi, h ⟨i, hi⟩]
    simp [List.getElem?_ofFn, hi]
  · rw [List.getElem?_eq_none (by simp; omega), List.getElem?_eq_none (by simp; omega)]

theorem getElem?_flatMap {β γ : Type} (f : β → List γ) (k : Nat) : ∀ (l : List β), (∀ b ∈ l, (f b).length = k) →
    ∀ (j i : Nat) (b : β), i < k → l[j]? = some b → (l.flatMap f)[i + k * j]? = (f b)[i]?
  | [], _, _, _, _, _, h => by simp at h
  | a :: l, hl, 0, i, b, hi, h => by
    simp only [List.getElem?_cons_zero, Option.some.injEq] at h
    subst h
    rw [List.flatMap_cons, List.getElem?_append_left (by
      have := hl a List.mem_cons_self; omega)]
    simp
  | a :: l, hl, j + 1, i, b, hi, h => by
    have ha := hl a List.mem_cons_self
    have e : i + k * (j + 1) - (f a).length = i + k * j := by rw [ha, Nat.mul_add]; omega
    rw [List.flatMap_cons, List.getElem?_append_right (by rw [ha, Nat.mul_add]; omega), e]
    exact getElem?_flatMap f k l (fun b hb => hl b (List.mem_cons_of_mem _ hb)) j i b hi (by simpa using h)

/-- the projected matrix in numbers, as LAPACK reads it -/
def gramK {k : Nat} (R U : Fin k → Fin n → K) : List K :=
  (List.ofFn R).flatMap fun u => (List.ofFn U).map fun v => u ⬝ᵥ v

omit [LinearOrder K] in
theorem gramK_length {k : Nat} (R U : Fin k → Fin n → K) : (gramK R U).length = k * k := by
  unfold gramK
  rw [List.length_flatMap]
  simp [Function.comp_def, List.ofFn_const]

omit [LinearOrder K] in
theorem cm_gramK {k : Nat} (R U : Fin k → Fin n → K) (i j : Fin k) : cm (gramK R U) k i j = R j ⬝ᵥ U i := by
  unfold cm gramK
  rw [List.getD, getElem?_flatMap _ k _ (by simp) j i (R j) i.2 (by simp [List.getElem?_ofFn])]
  simp [List.getElem?_ofFn]

variable [IsStrictOrderedRing K]

theorem gram_vec (sq : K → K) {k : Nat} (R U : Fin k → Fin n → K) :
    gram (Ext.num sq) (List.ofFn fun a => vec Ext.fin (R a)) (List.ofFn fun a => vec Ext.fin (U a)) =
      (gramK R U).map Ext.fin := by
  have hd : ∀ u v : Fin n → K, (Ext.num sq).sum (List.zipWith (Ext.num sq).mul (vec Ext.fin u) (vec Ext.fin v)) =
      .fin (u ⬝ᵥ v) := by
    intro u v
    have h := Solver.dot_vec (Ext.exact sq) u v
    unfold Num.dot at h
    obtain ⟨_, _, h⟩ := Res.bind_eq_ok.mp h
    exact Res.ok.inj h
  unfold gram gramK
  have e1 : (List.ofFn fun a => vec (Ext.fin : K → Ext K) (R a)) = (List.ofFn R).map (vec Ext.fin) := by
    rw [List.map_ofFn]; rfl
  have e2 : (List.ofFn fun a => vec (Ext.fin : K → Ext K) (U a)) = (List.ofFn U).map (vec Ext.fin) := by
    rw [List.map_ofFn]; rfl
  rw [e1, e2, List.flatMap_map, List.map_flatMap]
  congr 1
  funext u
  rw [List.map_map, List.map_map]
  apply List.map_congr_left
  intro v _
  exact hd u v

omit [LinearOrder K] [IsStrictOrderedRing K] in
theorem sym_gramK {k : Nat} (hM : Mᵀ = M) (U : Fin k → Fin n → K) :
    mat k (sym false (gramK (fun a => M *ᵥ U a) U) k) = (Matrix.of U) * M * (Matrix.of U)ᵀ := by
  have e : ∀ i j : Fin k, ((Matrix.of U) * M * (Matrix.of U)ᵀ) i j = U i ⬝ᵥ (M *ᵥ U j) := by
    intro i j
    rw [Matrix.mul_assoc, Matrix.mul_apply_eq_vecMul, ← Matrix.vecMul_vecMul]
    rw [Matrix.dotProduct_mulVec]
    rfl
  have hs : ∀ u v : Fin n → K, (M *ᵥ u) ⬝ᵥ v = u ⬝ᵥ (M *ᵥ v) := by
    intro u v
    rw [Matrix.dotProduct_mulVec, ← Matrix.mulVec_transpose, hM]
  ext i j
  rw [e]
  simp only [mat, Matrix.of_apply, sym, Bool.false_eq_true, if_false]
  split
  · rw [cm_gramK, dotProduct_comm]
  · rw [cm_gramK, hs]

omit [IsStrictOrderedRing K] in
/-- the answer of LAPACK solves the projected problem -/
theorem solved_of {k : Nat} (hM : Mᵀ = M) (hQ : Qᵀ = Q) (U : Fin k → Fin n → K) {z e w : List K}
    (h1 : SygvdOk 1 false k (gramK (fun a => M *ᵥ U a) U) k (gramK (fun a => Q *ᵥ U a) U) k (z, e, w, 0))
    (h2 : SygvdNormal 1 false k (gramK (fun a => Q *ᵥ U a) U) k k (z, e, w, 0)) :
    Ritz.Solved M Q (Matrix.of U) (mat k (cm z k)) (fun i => w.getD i 0) := by
  have g := GenEig.matrix (h1.eigen rfl)
  rw [if_pos rfl, sym_gramK hM, sym_gramK hQ] at g
  have g2 := h2 rfl
  rw [if_neg (by decide), sym_gramK hQ] at g2
  exact ⟨g, g2, fun i j hij => h1.sorted rfl i j hij j.2⟩

end Verif.Lobpcg
