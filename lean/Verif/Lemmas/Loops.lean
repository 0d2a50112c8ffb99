import Verif.Core.Buf
import Mathlib.Tactic.Ring

/-! Closed forms of element-writing loops and row-major index arithmetic. -/

namespace Verif

universe u

theorem idx_lt {i j M N : Nat} (hi : i < M) (hj : j < N) : N * i + j < M * N := by
  calc N * i + j < N * i + N := by omega
    _ = N * (i + 1) := by ring
    _ ≤ N * M := Nat.mul_le_mul_left _ (by omega)
    _ = M * N := Nat.mul_comm _ _

theorem idx_div {i j N : Nat} (hj : j < N) : (N * i + j) / N = i := by
  rw [Nat.mul_add_div (by omega), Nat.div_eq_of_lt hj, Nat.add_zero]

theorem idx_mod {i j N : Nat} (hj : j < N) : (N * i + j) % N = j := by
  rw [Nat.mul_add_mod, Nat.mod_eq_of_lt hj]

theorem idx_inj {i j i' j' N : Nat} (hj : j < N) (hj' : j' < N) (h : N * i + j = N * i' + j') :
    i = i' ∧ j = j' := by
  have h1 := congrArg (· / N) h
  have h2 := congrArg (· % N) h
  simp only [idx_div hj, idx_div hj', idx_mod hj, idx_mod hj'] at h1 h2
  exact ⟨h1, h2⟩

theorem idx_decomp {n M N : Nat} (h : n < M * N) : n / N < M ∧ n % N < N ∧ N * (n / N) + n % N = n := by
  have hN : 0 < N := by
    rcases Nat.eq_zero_or_pos N with h0 | h0
    · subst h0; simp at h
    · exact h0
  exact ⟨Nat.div_lt_of_lt_mul (by rw [Nat.mul_comm]; exact h), Nat.mod_lt _ hN, Nat.div_add_mod n N⟩

/-- A loop writing `f i` to position `o + i` for `i < n`. -/
theorem forN_write_off {α : Type u} {n o : Nat} {b : List α} (f : Nat → α)
    {body : Nat → List α → Res (List α)} (hn : o + n ≤ b.length)
    (hbody : ∀ i, i < n → body i (b.take o ++ (List.range i).map f ++ b.drop (o + i)) =
      wr (b.take o ++ (List.range i).map f ++ b.drop (o + i)) (o + i) (f i)) :
    forN n body b = .ok (b.take o ++ (List.range n).map f ++ b.drop (o + n)) := by
  obtain ⟨s, hs, h⟩ := forN_sat (n := n) (body := body) (s := b)
    (fun i s => s = b.take o ++ (List.range i).map f ++ b.drop (o + i))
    (by simp)
    (by
      rintro i s hi rfl
      rw [hbody i hi, wr_ok (by simp; omega), Res.sat_ok]
      have h1 : b.drop (o + i) = b[o + i]'(by omega) :: b.drop (o + (i + 1)) := by
        rw [List.drop_eq_getElem_cons (by omega)]; rfl
      rw [h1, List.range_succ, List.map_append, List.set_append_right]
      · have : o + i - (b.take o ++ (List.range i).map f).length = 0 := by simp; omega
        rw [this]; simp
      · simp)
  rw [hs, h]

/-- A loop writing `f i` to position `i` for `i < n`. -/
theorem forN_write {α : Type u} {n : Nat} {b : List α} (f : Nat → α)
    {body : Nat → List α → Res (List α)} (hn : n ≤ b.length)
    (hbody : ∀ i, i < n → body i ((List.range i).map f ++ b.drop i) =
      wr ((List.range i).map f ++ b.drop i) i (f i)) :
    forN n body b = .ok ((List.range n).map f ++ b.drop n) := by
  have := forN_write_off (o := 0) (n := n) (b := b) f (body := body) (by omega)
    (by intro i hi; simpa using hbody i hi)
  simpa using this

/-- the written list, pointwise -/
theorem getElem?_written {α : Type u} {n : Nat} {b : List α} (f : Nat → α)
    (k : Nat) : ((List.range n).map f ++ b.drop n)[k]? = if k < n then some (f k) else b[k]? := by
  by_cases h : k < n
  · simp [h, List.getElem?_append_left]
  · rw [List.getElem?_append_right (by simp; omega), if_neg h, List.getElem?_drop]
    congr 1; simp; omega

end Verif
