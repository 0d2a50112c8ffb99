import Verif.Lemmas.DenseBasic

/-! Lemmas on transposition of dense matrices. -/

namespace Verif

variable {α : Type}

theorem swapBuf_getElem? {β : Type} {b : List β} {l h : Nat} (hl : l < b.length) (hh : h < b.length)
    (hne : l ≠ h) :
    (Coo.swapBuf b l h).Sat (fun b' => b'.length = b.length ∧ ∀ k, b'[k]? =
      if k = l then b[h]? else if k = h then b[l]? else b[k]?) := by
  unfold Coo.swapBuf
  rw [rd_ok hl, Res.ok_bind, rd_ok hh, Res.ok_bind, wr_ok hl, Res.ok_bind,
    wr_ok (by simpa using hh), Res.sat_ok]
  refine ⟨by simp, ?_⟩
  intro k
  by_cases h1 : k = l
  · subst h1
    rw [List.getElem?_set_ne (by omega), List.getElem?_set_self hl, if_pos rfl,
      List.getElem?_eq_getElem hh]
  · by_cases h2 : k = h
    · subst h2
      rw [List.getElem?_set_self (by simpa using hh), if_neg h1, if_pos rfl,
        List.getElem?_eq_getElem hl]
    · rw [List.getElem?_set_ne (by omega), List.getElem?_set_ne (by omega), if_neg h1, if_neg h2]

/-- the exchanged part of the matrix after `i` complete rows and the columns below `k` of row `i` -/
def trDone (i k r c : Nat) : Prop := min r c < i ∨ (min r c = i ∧ max r c < k)

instance (i k r c : Nat) : Decidable (trDone i k r c) := by unfold trDone; infer_instance

/-- invariant of the square transposition loops -/
def TrInv (M : Nat) (a : List α) (i k : Nat) (b : List α) : Prop :=
  b.length = a.length ∧ (∀ r c, r < M → c < M →
    b[M * r + c]? = if trDone i k r c then a[M * c + r]? else a[M * r + c]?) ∧
  ∀ n, M * M ≤ n → b[n]? = a[n]?

theorem TrInv.step {M : Nat} {a b : List α} (ha : M * M ≤ a.length) {i k : Nat} (hik : i < k)
    (hk : k < M) (h : TrInv M a i k b) : (Dense.trSwap M i k b).Sat (TrInv M a i (k + 1)) := by
  obtain ⟨hl, hb, ho⟩ := h
  unfold Dense.trSwap
  have h1 : i * M + k < M * M := by rw [Nat.mul_comm i]; exact idx_lt (by omega) hk
  have h2 : k * M + i < M * M := by rw [Nat.mul_comm k]; exact idx_lt hk (by omega)
  have hne : i * M + k ≠ k * M + i := by
    rw [Nat.mul_comm i, Nat.mul_comm k]
    intro h; have := idx_inj hk (by omega) h; omega
  refine (swapBuf_getElem? (by omega) (by omega) hne).mono ?_
  rintro b' ⟨hl', hg⟩
  refine ⟨by omega, ?_, ?_⟩
  · intro r c hr hc
    rw [hg, Nat.mul_comm i, Nat.mul_comm k]
    by_cases e1 : M * r + c = M * i + k
    · obtain ⟨rfl, rfl⟩ := idx_inj hc hk e1
      rw [if_pos rfl, hb _ _ hk (by omega), if_neg (by unfold trDone; omega),
        if_pos (by unfold trDone; omega)]
    · rw [if_neg e1]
      by_cases e2 : M * r + c = M * k + i
      · obtain ⟨rfl, rfl⟩ := idx_inj hc (by omega) e2
        rw [if_pos rfl, hb _ _ (by omega) hk, if_neg (by unfold trDone; omega),
          if_pos (by unfold trDone; omega)]
      · rw [if_neg e2, hb r c hr hc]
        have hrc : ¬ (r = i ∧ c = k) := by rintro ⟨rfl, rfl⟩; exact e1 rfl
        have hcr : ¬ (r = k ∧ c = i) := by rintro ⟨rfl, rfl⟩; exact e2 rfl
        have : trDone i (k + 1) r c ↔ trDone i k r c := by unfold trDone; omega
        simp only [this]
  · intro n hn
    rw [hg, if_neg (by omega), if_neg (by omega), ho n hn]

theorem square_loop {M : Nat} {a : List α} (ha : M * M ≤ a.length) :
    (forN M (fun i b => forRange (i + 1) M (fun j b => Dense.trSwap M i j b) b) a).Sat (fun b =>
      b.length = a.length ∧ (∀ r c, r < M → c < M → b[M * r + c]? = a[M * c + r]?) ∧
      ∀ n, M * M ≤ n → b[n]? = a[n]?) := by
  refine (forN_sat (fun i b => TrInv M a i (i + 1) b) ?_ ?_).mono ?_
  · refine ⟨rfl, ?_, fun _ _ => rfl⟩
    intro r c _ _
    split
    · rename_i h
      have : r = c := by unfold trDone at h; omega
      subst this; rfl
    · rfl
  · intro i b hi hb
    have := forRange_sat (lo := i + 1) (hi := M) (body := fun j b => Dense.trSwap M i j b) (s := b)
      (fun k b => TrInv M a i k b) (by omega) hb
      (fun k s h1 h2 hs => hs.step ha (by omega) h2)
    refine this.mono ?_
    rintro b' ⟨h1, h2, h3⟩
    refine ⟨h1, ?_, h3⟩
    intro r c hr hc
    rw [h2 r c hr hc]
    by_cases hd : trDone i M r c
    · rw [if_pos hd]
      by_cases hd' : trDone (i + 1) (i + 1 + 1) r c
      · rw [if_pos hd']
      · exact absurd hd (by unfold trDone at *; omega)
    · rw [if_neg hd]
      by_cases hd' : trDone (i + 1) (i + 1 + 1) r c
      · have : r = c := by unfold trDone at *; omega
        subst this; rw [if_pos hd']
      · rw [if_neg hd']
  · rintro b ⟨h1, h2, h3⟩
    refine ⟨h1, ?_, h3⟩
    intro r c hr hc
    rw [h2 r c hr hc, if_pos (by unfold trDone; omega)]

namespace Dense

/-- `B` holds the transposed elements of `A` -/
theorem at_transposed {A B : Dense α} (hA : A.WF) (hA0 : A.first = 0) (hB : B.WF)
    (hB0 : B.first = 0) (hr : B.rowN = A.colN) (hc : B.colN = A.rowN)
    (h : ∀ i j, i < A.rowN → j < A.colN → B.val[A.rowN * j + i]? = A.val[A.colN * i + j]?) :
    ∀ i j, i < A.rowN → j < A.colN → B.at_ j i = A.at_ i j := by
  intro i j hi hj
  obtain ⟨v, h1, h2⟩ := at_exists hA hi hj
  rw [h1]
  refine at_of_getElem? hB (by omega) (by omega) ?_
  rw [hB0, hc, Nat.zero_add, h i j hi hj, ← h2, hA0, Nat.zero_add]

theorem transpose_ok [Zero α] {A : Dense α} (hA : A.WF) (hA0 : A.first = 0) :
    ∃ B, A.transpose = .ok B ∧ B.WF ∧ B.first = 0 ∧ B.rowN = A.colN ∧ B.colN = A.rowN ∧
      B.nnz = A.nnz ∧ B.val.length = A.val.length ∧
      (∀ i j, i < A.rowN → j < A.colN → B.val[A.rowN * j + i]? = A.val[A.colN * i + j]?) ∧
      ∀ n, A.nnz ≤ n → B.val[n]? = A.val[n]? := by
  have hl := hA.lenV; have hn := hA.nnz_eq; have hw := hA.window
  unfold transpose
  by_cases hsq : A.rowN = A.colN
  · rw [if_pos hsq]
    obtain ⟨b, hb, h1, h2, h3⟩ := square_loop (M := A.rowN) (a := A.val)
      (by rw [← hsq] at hn; omega)
    rw [hb, Res.ok_bind]
    refine ⟨_, rfl, ⟨by simp; omega, hn, hw⟩, hA0, hsq, hsq.symm, rfl, h1, ?_, ?_⟩
    · intro i j hi hj
      simp only
      rw [h2 j i (by omega) hi, ← hsq]
    · intro n h
      exact h3 n (by rw [← hsq] at hn; omega)
  · rw [if_neg hsq]
    obtain ⟨B, hB, hwf, hf, hr, hc, _, hv⟩ := new_ok (α := α) A.colN A.rowN
    rw [hB, Res.ok_bind]
    have hBl : B.val.length = A.rowN * A.colN := by rw [hv]; simp [Nat.mul_comm]
    -- the function tabulated by the copy loop
    let f : Nat → α := fun n => A.val.getD (A.colN * (n % A.rowN) + n / A.rowN) 0
    have hf' : ∀ n, n < A.rowN * A.colN →
        A.val[A.colN * (n % A.rowN) + n / A.rowN]? = some (f n) := by
      intro n hn'
      obtain ⟨q1, q2, _⟩ := idx_decomp (M := A.colN) (N := A.rowN) (n := n) (by rw [Nat.mul_comm]; exact hn')
      have := idx_lt (M := A.rowN) (N := A.colN) q2 q1
      rw [List.getElem?_eq_getElem (by omega)]
      simp only [f]
      rw [List.getD_eq_getElem?_getD, List.getElem?_eq_getElem (by omega)]; rfl
    rw [forN_write f (by omega) (by
      intro i hi
      rw [rd_of_getElem? (hf' i hi), Res.ok_bind]), Res.ok_bind,
      vcopy_ok (by simp) (by omega), Res.ok_bind]
    refine ⟨_, rfl, ⟨by simp; omega, by simp [hn, Nat.mul_comm], hw⟩, hA0, rfl, rfl, rfl,
      by simp; omega, ?_, ?_⟩
    · intro i j hi hj
      have hlt : A.rowN * j + i < A.rowN * A.colN := by
        rw [Nat.mul_comm A.rowN A.colN]; exact idx_lt hj hi
      simp only
      rw [List.getElem?_append_left (by simp; omega), List.getElem?_take, if_pos hlt,
        getElem?_written, if_pos hlt, ← hf' _ hlt, idx_div hi, idx_mod hi]
    · intro n h
      simp only
      rw [List.getElem?_append_right (by simp; omega), List.getElem?_drop]
      congr 1; simp; omega

theorem transposeFrom_ok [Zero α] {T B : Dense α} (hT : T.Own) (hB : B.WF) (hB0 : B.first = 0) :
    ∃ A, T.transposeFrom B = .ok A ∧ A.WF ∧ A.first = 0 ∧ A.rowN = B.colN ∧ A.colN = B.rowN ∧
      ∀ i j, i < B.rowN → j < B.colN → A.val[B.rowN * j + i]? = B.val[B.colN * i + j]? := by
  have hl := hB.lenV; have hn := hB.nnz_eq; have hw := hB.window
  have hown : ({ T with rowN := B.colN, colN := B.rowN, created := true } : Dense α).Own :=
    ⟨hT.lenV, hT.nnz_le, hT.first0⟩
  obtain ⟨V, a, hr, hV, ha⟩ := resize_own hown rfl (B.rowN * B.colN) 0
  unfold transposeFrom
  rw [hr, Res.ok_bind]
  simp only
  let f : Nat → α := fun n => B.val.getD (B.colN * (n % B.rowN) + n / B.rowN) 0
  have hf' : ∀ n, n < B.colN * B.rowN →
      B.val[B.colN * (n % B.rowN) + n / B.rowN]? = some (f n) := by
    intro n hn'
    obtain ⟨q1, q2, _⟩ := idx_decomp (M := B.colN) (N := B.rowN) (n := n) hn'
    have := idx_lt (M := B.rowN) (N := B.colN) q2 q1
    rw [List.getElem?_eq_getElem (by omega)]
    simp only [f]
    rw [List.getD_eq_getElem?_getD, List.getElem?_eq_getElem (by omega)]; rfl
  have hcm : B.colN * B.rowN = B.rowN * B.colN := Nat.mul_comm _ _
  rw [forN_write f (by omega) (by
    intro i hi
    rw [rd_of_getElem? (hf' i hi), Res.ok_bind]), Res.ok_bind]
  refine ⟨_, rfl, ⟨by simp; omega, hcm.symm, by simp [hT.first0]; omega⟩, hT.first0, rfl, rfl, ?_⟩
  intro i j hi hj
  have hlt : B.rowN * j + i < B.colN * B.rowN := idx_lt hj hi
  simp only
  rw [getElem?_written, if_pos hlt, ← hf' _ hlt, idx_div hi, idx_mod hi]

end Dense
end Verif
