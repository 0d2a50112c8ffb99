import Verif.Core.Buf

/-!
Helper: the quicksort of the library on one list of records, and its correctness.
The models in `Verif/Model` keep the separate arrays of the code; they are related to this
single-list version by simulation lemmas.
-/

namespace Verif.QS

variable {ρ : Type}

def cmpAt (cmp : ρ → ρ → Int) (a : List ρ) (i j : Nat) : Res Int := do
  let x ← rd a i
  let y ← rd a j
  .ok (cmp x y)

def scanUp (cmp : ρ → ρ → Int) (a : List ρ) (p h : Nat) : (fuel l : Nat) → Res Nat
  | 0, l => .ok l
  | n + 1, l =>
    if l < h then do
      let d ← cmpAt cmp a l p
      if d ≤ 0 then scanUp cmp a p h n (l + 1) else .ok l
    else .ok l

def scanDown (cmp : ρ → ρ → Int) (a : List ρ) (p l : Nat) : (fuel h : Nat) → Res Nat
  | 0, h => .ok h
  | n + 1, h =>
    if h > l then do
      let d ← cmpAt cmp a h p
      if d ≥ 0 then scanDown cmp a p l n (h - 1) else .ok h
    else .ok h

def swapBuf (b : List ρ) (l h : Nat) : Res (List ρ) := do
  let t ← rd b l
  let u ← rd b h
  let b ← wr b l u
  wr b h t

def partLoop (cmp : ρ → ρ → Int) (p : Nat) :
    (fuel l h : Nat) → List ρ → Res (Nat × List ρ)
  | 0, _, _, _ => .ub "fuel"
  | n + 1, l, h, a => do
    let l ← scanUp cmp a p h (h - l) l
    let h ← scanDown cmp a p l (h - l) h
    if l < h then do
      let a ← swapBuf a l h
      partLoop cmp p n l h a
    else .ok (l, a)

def qSort (cmp : ρ → ρ → Int) : (fuel lo hi1 : Nat) → List ρ → Res (List ρ)
  | 0, _, _, _ => .ub "fuel"
  | n + 1, lo, hi1, a =>
    if lo + 1 ≥ hi1 then .ok a else do
      let p := hi1 - 1
      let p1 ← rd a p
      let (l, a) ← partLoop cmp p (hi1 - lo) lo p a
      let x ← rd a l
      let a ← wr a p x
      let a ← wr a l p1
      if l - lo < p - l then do
        let a ← qSort cmp n lo l a
        qSort cmp n (l + 1) hi1 a
      else do
        let a ← qSort cmp n (l + 1) hi1 a
        qSort cmp n lo l a

/-- total preorder laws of a three-way comparison -/
structure CmpOk (cmp : ρ → ρ → Int) : Prop where
  flip : ∀ x y, cmp x y ≥ 0 ↔ cmp y x ≤ 0
  trans : ∀ x y z, cmp x y ≤ 0 → cmp y z ≤ 0 → cmp x z ≤ 0

theorem CmpOk.total {cmp : ρ → ρ → Int} (h : CmpOk cmp) (x y : ρ) : cmp x y ≤ 0 ∨ cmp y x ≤ 0 := by
  by_cases hx : cmp x y ≤ 0
  · exact .inl hx
  · exact .inr ((h.flip x y).1 (by omega))

theorem CmpOk.refl {cmp : ρ → ρ → Int} (h : CmpOk cmp) (x : ρ) : cmp x x ≤ 0 := by
  rcases h.total x x with h | h <;> exact h

/-- swapping two positions -/
def swapL (a : List ρ) (i j : Nat) (hi : i < a.length) (hj : j < a.length) : List ρ :=
  (a.set i a[j]).set j a[i]

theorem swapBuf_ok {a : List ρ} {i j : Nat} (hi : i < a.length) (hj : j < a.length) :
    swapBuf a i j = .ok (swapL a i j hi hj) := by
  simp only [swapBuf]
  rw [rd_ok hi, Res.ok_bind, rd_ok hj, Res.ok_bind, wr_ok hi, Res.ok_bind, wr_ok (by simpa using hj)]
  rfl

@[simp] theorem length_swapL {a : List ρ} {i j : Nat} (hi : i < a.length) (hj : j < a.length) :
    (swapL a i j hi hj).length = a.length := by simp [swapL]

theorem getElem_swapL {a : List ρ} {i j : Nat} (hi : i < a.length) (hj : j < a.length) (k : Nat)
    (hk : k < (swapL a i j hi hj).length) :
    (swapL a i j hi hj)[k] =
      if k = j then a[i] else if k = i then a[j] else a[k]'(by simpa using hk) := by
  simp only [swapL, List.getElem_set]
  by_cases h1 : j = k
  · simp [h1]
  · by_cases h2 : i = k
    · subst h2; simp [h1, Ne.symm h1]
    · simp [h1, h2, Ne.symm h1, Ne.symm h2]

theorem swapL_perm {a : List ρ} {i j : Nat} (hi : i < a.length) (hj : j < a.length) :
    (swapL a i j hi hj).Perm a := by
  unfold swapL
  exact List.set_set_perm hi hj

/-- what `scanUp` guarantees -/
theorem scanUp_sat {cmp : ρ → ρ → Int} {a : List ρ} {p h : Nat} (hp : p < a.length) (hh : h ≤ p) :
    ∀ n l, n = h - l → l ≤ h →
    (scanUp cmp a p h n l).Sat (fun l' => l ≤ l' ∧ l' ≤ h ∧
      (∀ k (hk : k < a.length), l ≤ k → k < l' → cmp a[k] a[p] ≤ 0) ∧
      (l' < h → ∀ (hl : l' < a.length), ¬ cmp a[l'] a[p] ≤ 0)) := by
  intro n
  induction n with
  | zero =>
    intro l hn hl
    refine ⟨l, rfl, Nat.le_refl _, hl, ?_, ?_⟩
    · intro k hk h1 h2; omega
    · intro h1; omega
  | succ n ih =>
    intro l hn hl
    have hlt : l < h := by omega
    have hll : l < a.length := by omega
    simp only [scanUp, hlt, if_true, cmpAt, rd_ok hll, rd_ok hp, Res.ok_bind]
    by_cases hc : cmp a[l] a[p] ≤ 0
    · simp only [hc, if_true]
      refine (ih (l + 1) (by omega) (by omega)).mono ?_
      rintro l' ⟨h1, h2, h3, h4⟩
      refine ⟨by omega, h2, ?_, h4⟩
      intro k hk hk1 hk2
      by_cases e : k = l
      · subst e; exact hc
      · exact h3 k hk (by omega) hk2
    · simp only [hc, if_false]
      refine ⟨l, rfl, Nat.le_refl _, hl, ?_, ?_⟩
      · intro k hk h1 h2; omega
      · intro _ _; exact hc

theorem scanDown_sat {cmp : ρ → ρ → Int} {a : List ρ} {p l : Nat} (hp : p < a.length) :
    ∀ n h, n = h - l → l ≤ h → h ≤ p →
    (scanDown cmp a p l n h).Sat (fun h' => l ≤ h' ∧ h' ≤ h ∧
      (∀ k (hk : k < a.length), h' < k → k ≤ h → cmp a[k] a[p] ≥ 0) ∧
      (l < h' → ∀ (hl : h' < a.length), ¬ cmp a[h'] a[p] ≥ 0)) := by
  intro n
  induction n with
  | zero =>
    intro h hn hl hhp
    refine ⟨h, rfl, hl, Nat.le_refl _, ?_, ?_⟩
    · intro k hk h1 h2; omega
    · intro h1; omega
  | succ n ih =>
    intro h hn hl hhp
    have hlt : h > l := by omega
    have hll : h < a.length := by omega
    simp only [scanDown, hlt, if_true, cmpAt, rd_ok hll, rd_ok hp, Res.ok_bind]
    by_cases hc : cmp a[h] a[p] ≥ 0
    · simp only [hc, if_true]
      refine (ih (h - 1) (by omega) (by omega) (by omega)).mono ?_
      rintro h' ⟨h1, h2, h3, h4⟩
      refine ⟨h1, by omega, ?_, h4⟩
      intro k hk hk1 hk2
      by_cases e : k = h
      · subst e; exact hc
      · exact h3 k hk hk1 (by omega)
    · simp only [hc, if_false]
      refine ⟨h, rfl, hl, Nat.le_refl _, ?_, ?_⟩
      · intro k hk h1 h2; omega
      · intro _ _; exact hc

/-- relation between an array and a rearrangement of its segment `[lo, hi1)` -/
structure Rearr (lo hi1 : Nat) (a a' : List ρ) : Prop where
  perm : a'.Perm a
  frame : ∀ k, (k < lo ∨ hi1 ≤ k) → a'[k]? = a[k]?
  inside : ∀ P : ρ → Prop, (∀ k (h : k < a.length), lo ≤ k → k < hi1 → P a[k]) →
    ∀ k (h : k < a'.length), lo ≤ k → k < hi1 → P a'[k]

theorem Rearr.len {lo hi1 : Nat} {a a' : List ρ} (h : Rearr lo hi1 a a') :
    a'.length = a.length := h.perm.length_eq

theorem Rearr.refl (lo hi1 : Nat) (a : List ρ) : Rearr lo hi1 a a :=
  ⟨.refl _, fun _ _ => rfl, fun _ h => h⟩

theorem Rearr.trans {lo hi1 : Nat} {a b c : List ρ} (h1 : Rearr lo hi1 a b)
    (h2 : Rearr lo hi1 b c) : Rearr lo hi1 a c :=
  ⟨h2.perm.trans h1.perm, fun k hk => (h2.frame k hk).trans (h1.frame k hk),
   fun P hP => h2.inside P (h1.inside P hP)⟩

theorem Rearr.widen {lo hi1 lo' hi1' : Nat} {a b : List ρ} (h : Rearr lo hi1 a b)
    (h1 : lo' ≤ lo) (h2 : hi1 ≤ hi1') : Rearr lo' hi1' a b := by
  refine ⟨h.perm, fun k hk => h.frame k (by omega), ?_⟩
  intro P hP k hk hk1 hk2
  by_cases hin : lo ≤ k ∧ k < hi1
  · exact h.inside P (fun k hk a1 a2 => hP k hk (by omega) (by omega)) k hk hin.1 hin.2
  · have hf := h.frame k (by omega)
    have hka : k < a.length := by have := h.len; omega
    rw [List.getElem?_eq_getElem hk, List.getElem?_eq_getElem hka] at hf
    have : b[k] = a[k] := by simpa using hf
    rw [this]; exact hP k hka hk1 hk2

theorem Rearr.get_frame {lo hi1 : Nat} {a b : List ρ} (h : Rearr lo hi1 a b) (k : Nat)
    (hk : k < lo ∨ hi1 ≤ k) (hb : k < b.length) (ha : k < a.length) : b[k] = a[k] := by
  have hf := h.frame k hk
  rw [List.getElem?_eq_getElem hb, List.getElem?_eq_getElem ha] at hf
  simpa using hf

theorem Rearr.swap {lo hi1 : Nat} {a : List ρ} {i j : Nat} (hi : i < a.length) (hj : j < a.length)
    (h1 : lo ≤ i) (h2 : i < hi1) (h3 : lo ≤ j) (h4 : j < hi1) :
    Rearr lo hi1 a (swapL a i j hi hj) := by
  refine ⟨swapL_perm hi hj, ?_, ?_⟩
  · intro k hk
    by_cases hka : k < a.length
    · rw [List.getElem?_eq_getElem (by simpa using hka), List.getElem?_eq_getElem hka,
        getElem_swapL]
      have : k ≠ j := by omega
      have : k ≠ i := by omega
      simp [*]
    · rw [List.getElem?_eq_none (by simpa using hka), List.getElem?_eq_none (by simpa using hka)]
  · intro P hP k hk hk1 hk2
    rw [getElem_swapL]
    split
    · exact hP i hi h1 h2
    · split
      · exact hP j hj h3 h4
      · exact hP k (by simpa using hk) hk1 hk2

/-- the partition loop -/
theorem partLoop_sat {cmp : ρ → ρ → Int} (hcmp : CmpOk cmp) {lo p : Nat} :
    ∀ n l h (a : List ρ), (hpl : p < a.length) → lo ≤ l → l ≤ h → h ≤ p → h - l < n →
    (∀ k (hk : k < a.length), lo ≤ k → k < l → cmp a[k] a[p] ≤ 0) →
    (∀ k (hk : k < a.length), h ≤ k → k ≤ p → cmp a[k] a[p] ≥ 0) →
    -- progress: either the first call (h = p) or the element at `l` is below the pivot
    (l < h → h = p ∨ ∀ (hl : l < a.length), cmp a[l] a[p] ≤ 0) →
    (partLoop cmp p n l h a).Sat (fun r => 
      lo ≤ r.1 ∧ r.1 ≤ p ∧ Rearr lo p a r.2 ∧
      (∀ k (hk : k < r.2.length), lo ≤ k → k < r.1 → ∀ (hp' : p < r.2.length), cmp r.2[k] r.2[p] ≤ 0) ∧
      (∀ k (hk : k < r.2.length), r.1 ≤ k → k ≤ p → ∀ (hp' : p < r.2.length), cmp r.2[k] r.2[p] ≥ 0)) := by
  intro n
  induction n with
  | zero => intro l h a _ _ _ _ hlt; omega
  | succ n ih =>
    intro l h a hpl hlo hlh hhp hfuel hA hB hprog
    simp only [partLoop]
    refine Res.Sat.bind (scanUp_sat (cmp := cmp) hpl hhp (h - l) l rfl hlh) ?_
    rintro l' ⟨hl1, hl2, hl3, hl4⟩
    refine Res.Sat.bind (scanDown_sat (cmp := cmp) hpl (h - l') h rfl hl2 hhp) ?_
    rintro h' ⟨hh1, hh2, hh3, hh4⟩
    by_cases hlt : l' < h'
    · simp only [hlt, if_true]
      have hl'len : l' < a.length := by omega
      have hh'len : h' < a.length := by omega
      rw [swapBuf_ok hl'len hh'len, Res.ok_bind]
      have hgt : ¬ cmp a[l'] a[p] ≤ 0 := hl4 (by omega) hl'len
      have hlt' : ¬ cmp a[h'] a[p] ≥ 0 := hh4 hlt hh'len
      have hh'p : h' ≠ p := by
        intro e; subst e
        exact hlt' ((hcmp.flip _ _).2 (hcmp.refl _))
      have hp_eq : (swapL a l' h' hl'len hh'len)[p]'(by simpa using hpl) = a[p] := by
        rw [getElem_swapL]
        have : p ≠ l' := by omega
        simp [Ne.symm hh'p, this]
      -- progress
      have hdec : h' - l' < n := by
        by_cases e : h' = h
        · -- then the second scan stopped at once, so h < p and l advanced
          subst e
          rcases hprog (by omega) with e2 | e2
          · exact absurd e2 hh'p
          · by_cases e3 : l' = l
            · subst e3; exact absurd (e2 hl'len) hgt
            · omega
        · omega
      have hstep := ih l' h' (swapL a l' h' hl'len hh'len) (by simpa using hpl) (by omega)
        (by omega) (by omega) hdec ?_ ?_ ?_
      · refine hstep.mono ?_
        rintro ⟨l'', a''⟩ ⟨h1, h2, h3, h4, h5⟩
        refine ⟨h1, h2, ?_, h4, h5⟩
        exact (Rearr.swap hl'len hh'len (by omega) (by omega) (by omega) (by omega)).trans h3
      · intro k hk hk1 hk2
        rw [hp_eq, getElem_swapL]
        have : k ≠ h' := by omega
        have : k ≠ l' := by omega
        simp only [*, if_false]
        by_cases hkl : k < l
        · exact hA k (by simpa using hk) hk1 hkl
        · exact hl3 k (by simpa using hk) (by omega) hk2
      · intro k hk hk1 hk2
        rw [hp_eq, getElem_swapL]
        by_cases e : k = h'
        · simp only [e, if_true]; omega
        · have : k ≠ l' := by omega
          simp only [e, this, if_false]
          by_cases hkh : k ≤ h
          · exact hh3 k (by simpa using hk) (by omega) hkh
          · exact hB k (by simpa using hk) (by omega) hk2
      · intro _
        right
        intro hl
        rw [hp_eq, getElem_swapL]
        have : l' ≠ h' := by omega
        simp only [this, if_false, if_true]
        omega
    · simp only [hlt, if_false, Res.sat_ok]
      have e : h' = l' := by omega
      subst e
      refine ⟨by omega, by omega, Rearr.refl _ _ _, ?_, ?_⟩
      · intro k hk hk1 hk2 _
        by_cases hkl : k < l
        · exact hA k hk hk1 hkl
        · exact hl3 k hk (by omega) hk2
      · intro k hk hk1 hk2 _
        by_cases hkh : k ≤ h
        · by_cases e : k = h'
          · subst e
            by_cases hh : k < h
            · have := hl4 hh hk; omega
            · exact hB k hk (by omega) hk2
          · exact hh3 k hk (by omega) hkh
        · exact hB k hk (by omega) hk2

/-- sortedness of a segment -/
def SortedSeg (cmp : ρ → ρ → Int) (lo hi1 : Nat) (a : List ρ) : Prop :=
  ∀ i j (_ : i < a.length) (_ : j < a.length), lo ≤ i → i < j → j < hi1 → cmp a[i] a[j] ≤ 0

theorem qSort_sat {cmp : ρ → ρ → Int} (hcmp : CmpOk cmp) :
    ∀ n lo hi1 (a : List ρ), hi1 ≤ a.length → hi1 - lo < n →
    (qSort cmp n lo hi1 a).Sat (fun a' => Rearr lo hi1 a a' ∧ SortedSeg cmp lo hi1 a') := by
  intro n
  induction n with
  | zero => intro lo hi1 a _ h; omega
  | succ n ih =>
    intro lo hi1 a hlen hfuel
    simp only [qSort]
    by_cases hsmall : lo + 1 ≥ hi1
    · simp only [hsmall, if_true, Res.sat_ok]
      refine ⟨Rearr.refl _ _ _, ?_⟩
      intro i j _ _ h1 h2 h3; omega
    · simp only [hsmall, if_false]
      have hp : hi1 - 1 < a.length := by omega
      rw [rd_ok hp, Res.ok_bind]
      have hpart := partLoop_sat hcmp (lo := lo) (p := hi1 - 1) (hi1 - lo) lo (hi1 - 1) a hp
        (Nat.le_refl _) (by omega) (Nat.le_refl _) (by omega)
        (fun k _ h1 h2 => by omega)
        (fun k hk h1 h2 => by
          have : k = hi1 - 1 := by omega
          subst this; exact (hcmp.flip _ _).2 (hcmp.refl _))
        (fun _ => .inl rfl)
      refine Res.Sat.bind hpart ?_
      rintro ⟨l, b⟩ ⟨hl1, hl2, hre, hle, hge⟩
      simp only at hl1 hl2 hre hle hge
      have hlenb : b.length = a.length := hre.len
      have hpb : hi1 - 1 < b.length := by omega
      have hlb : l < b.length := by omega
      have hbp : b[hi1 - 1] = a[hi1 - 1] := hre.get_frame _ (by omega) hpb hp
      have hwr : (do
          let x ← rd b l
          let a_1 ← wr b (hi1 - 1) x
          wr a_1 l a[hi1 - 1]) = .ok (swapL b (hi1 - 1) l hpb hlb) := by
        rw [rd_ok hlb, Res.ok_bind, wr_ok hpb, Res.ok_bind, ← hbp, wr_ok (by simpa using hlb)]
        rfl
      -- massage into the combined write
      have hcomb : ∀ (f : List ρ → Res (List ρ)),
          (do let x ← rd b l
              let a_1 ← wr b (hi1 - 1) x
              let a_2 ← wr a_1 l a[hi1 - 1]
              f a_2) = f (swapL b (hi1 - 1) l hpb hlb) := by
        intro f
        rw [rd_ok hlb, Res.ok_bind, wr_ok hpb, Res.ok_bind, ← hbp, wr_ok (by simpa using hlb),
          Res.ok_bind]
        rfl
      rw [hcomb]
      generalize hc : swapL b (hi1 - 1) l hpb hlb = c
      have hlenc : c.length = a.length := by rw [← hc]; simpa using hlenb
      have hget : ∀ k (hk : k < c.length), c[k] =
          if k = l then b[hi1 - 1] else if k = hi1 - 1 then b[l] else b[k]'(by omega) := by
        subst hc; intro k hk; rw [getElem_swapL]
      have hrc : Rearr lo hi1 a c := by
        refine (hre.widen (Nat.le_refl _) (by omega)).trans ?_
        subst hc
        exact Rearr.swap hpb hlb (by omega) (by omega) (by omega) (by omega)
      have hlc : l < c.length := by omega
      have hcl : c[l] = b[hi1 - 1] := by rw [hget l hlc]; simp
      have hcle : ∀ k (hk : k < c.length), lo ≤ k → k < l → cmp c[k] c[l] ≤ 0 := by
        intro k hk h1 h2
        rw [hcl, hget k hk]
        have hn1 : k ≠ l := by omega
        have hn2 : k ≠ hi1 - 1 := by omega
        simp only [hn1, hn2, if_false]
        exact hle k (by omega) h1 h2 hpb
      have hcge : ∀ k (hk : k < c.length), l < k → k < hi1 → cmp c[l] c[k] ≤ 0 := by
        intro k hk h1 h2
        rw [hcl, hget k hk]
        have h3 : k ≠ l := by omega
        simp only [h3, if_false]
        apply (hcmp.flip _ _).1
        split
        · exact hge l (by omega) (Nat.le_refl _) (by omega) hpb
        · exact hge k (by omega) (by omega) (by omega) hpb
      -- final assembly given the two recursive results
      have final : ∀ d e : List ρ, 
          ((Rearr lo l c d ∧ SortedSeg cmp lo l d ∧ Rearr (l+1) hi1 d e ∧ SortedSeg cmp (l+1) hi1 e) ∨
           (Rearr (l+1) hi1 c d ∧ SortedSeg cmp (l+1) hi1 d ∧ Rearr lo l d e ∧ SortedSeg cmp lo l e)) →
          Rearr lo hi1 a e ∧ SortedSeg cmp lo hi1 e := by
        intro d e hde
        have hr : Rearr lo hi1 c e := by
          rcases hde with ⟨h1, _, h2, _⟩ | ⟨h1, _, h2, _⟩
          · exact (h1.widen (Nat.le_refl _) (by omega)).trans (h2.widen (by omega) (Nat.le_refl _))
          · exact (h1.widen (by omega) (Nat.le_refl _)).trans (h2.widen (Nat.le_refl _) (by omega))
        have hlene : e.length = c.length := hr.len
        have hlend : d.length = c.length := by
          rcases hde with ⟨h1, _⟩ | ⟨h1, _⟩ <;> exact h1.len
        have hel : ∀ (h : l < e.length), e[l] = c[l] := by
          intro h
          rcases hde with ⟨h1, _, h2, _⟩ | ⟨h1, _, h2, _⟩
          · rw [h2.get_frame l (by omega) h (by omega), h1.get_frame l (by omega) (by omega) hlc]
          · rw [h2.get_frame l (by omega) h (by omega), h1.get_frame l (by omega) (by omega) hlc]
        have hlow : ∀ k (hk : k < e.length), lo ≤ k → k < l → cmp e[k] c[l] ≤ 0 := by
          intro k hk h1 h2
          rcases hde with ⟨r1, _, r2, _⟩ | ⟨r1, _, r2, _⟩
          · rw [r2.get_frame k (by omega) hk (by omega)]
            exact r1.inside (fun x => cmp x c[l] ≤ 0)
              (fun k hk a1 a2 => hcle k hk a1 a2) k (by omega) h1 h2
          · refine r2.inside (fun x => cmp x c[l] ≤ 0) ?_ k hk h1 h2
            intro k hk a1 a2
            rw [r1.get_frame k (by omega) hk (by omega)]
            exact hcle k (by omega) a1 a2
        have hhigh : ∀ k (hk : k < e.length), l < k → k < hi1 → cmp c[l] e[k] ≤ 0 := by
          intro k hk h1 h2
          rcases hde with ⟨r1, _, r2, _⟩ | ⟨r1, _, r2, _⟩
          · refine r2.inside (fun x => cmp c[l] x ≤ 0) ?_ k hk (by omega) h2
            intro k hk a1 a2
            rw [r1.get_frame k (by omega) hk (by omega)]
            exact hcge k (by omega) (by omega) a2
          · rw [r2.get_frame k (by omega) hk (by omega)]
            exact r1.inside (fun x => cmp c[l] x ≤ 0)
              (fun k hk a1 a2 => hcge k hk (by omega) a2) k (by omega) (by omega) h2
        have hs1 : SortedSeg cmp lo l e := by
          rcases hde with ⟨r1, s1, r2, _⟩ | ⟨_, _, _, s2⟩
          · intro i j hi hj h1 h2 h3
            rw [r2.get_frame i (by omega) hi (by omega), r2.get_frame j (by omega) hj (by omega)]
            exact s1 i j (by omega) (by omega) h1 h2 h3
          · exact s2
        have hs2 : SortedSeg cmp (l+1) hi1 e := by
          rcases hde with ⟨_, _, _, s2⟩ | ⟨r1, s1, r2, _⟩
          · exact s2
          · intro i j hi hj h1 h2 h3
            rw [r2.get_frame i (by omega) hi (by omega), r2.get_frame j (by omega) hj (by omega)]
            exact s1 i j (by omega) (by omega) h1 h2 h3
        refine ⟨hrc.trans hr, ?_⟩
        intro i j hi hj h1 h2 h3
        by_cases hjl : j < l
        · exact hs1 i j hi hj h1 h2 hjl
        · by_cases hil : l < i
          · exact hs2 i j hi hj (by omega) h2 h3
          · have a1 : cmp e[i] c[l] ≤ 0 := by
              by_cases e1 : i = l
              · subst e1; rw [hel hi]; exact hcmp.refl _
              · exact hlow i hi h1 (by omega)
            have a2 : cmp c[l] e[j] ≤ 0 := by
              by_cases e1 : j = l
              · subst e1; rw [hel hj]; exact hcmp.refl _
              · exact hhigh j hj (by omega) h3
            exact hcmp.trans _ _ _ a1 a2
      by_cases hsz : l - lo < hi1 - 1 - l
      · simp only [hsz, if_true]
        refine Res.Sat.bind (ih lo l c (by omega) (by omega)) ?_
        rintro d ⟨hd1, hd2⟩
        refine (ih (l + 1) hi1 d (by have := hd1.len; omega) (by omega)).mono ?_
        rintro e ⟨he1, he2⟩
        exact final d e (.inl ⟨hd1, hd2, he1, he2⟩)
      · simp only [hsz, if_false]
        refine Res.Sat.bind (ih (l + 1) hi1 c (by omega) (by omega)) ?_
        rintro d ⟨hd1, hd2⟩
        refine (ih lo l d (by have := hd1.len; omega) (by omega)).mono ?_
        rintro e ⟨he1, he2⟩
        exact final d e (.inr ⟨hd1, hd2, he1, he2⟩)

end Verif.QS
