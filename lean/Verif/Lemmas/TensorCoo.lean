import Verif.Spec.TensorCooSpec
import Verif.Lemmas.Tensor
import Verif.Lemmas.QSort
import Verif.Lemmas.CooMerge
import Verif.Lemmas.KeepLast

/-! Coordinate tensors: buffers as projections of a list of pairs; insertion, search, sorting. -/

namespace Verif

open Spec

variable {α : Type}

namespace TCoo

/-- a tensor whose buffers are the projections of `Z` -/
def ofZ (shape : List Nat) (Z : List (TEntry α)) (nnz : Nat) : TCoo α :=
  { shape := shape, index := Z.map (·.1), val := Z.map (·.2), nnz := nnz, alloc := Z.length,
    created := true }

def zip2 (T : TCoo α) : List (TEntry α) := T.index.zip T.val

theorem WF.eq_ofZ {T : TCoo α} (h : T.WF) : T = ofZ T.shape T.zip2 T.nnz := by
  obtain ⟨hc, h1, h2, _⟩ := h
  cases T
  simp only [ofZ, zip2] at *
  subst hc
  rw [show (fun x : TEntry α => x.1) = Prod.fst from rfl, show (fun x : TEntry α => x.2) = Prod.snd from rfl,
    List.map_fst_zip (by omega), List.map_snd_zip (by omega)]
  simp; omega

theorem WF.length_zip2 {T : TCoo α} (h : T.WF) : T.zip2.length = T.alloc := by
  obtain ⟨_, h1, h2, _⟩ := h; simp [zip2]; omega

theorem ofZ_wf {s : List Nat} {Z : List (TEntry α)} {nnz : Nat} (h : nnz ≤ Z.length) :
    (ofZ s Z nnz).WF := ⟨rfl, by simp [ofZ], by simp [ofZ], h⟩

theorem zip_proj (Z : List (TEntry α)) : (Z.map (·.1)).zip (Z.map (·.2)) = Z := by
  induction Z with
  | nil => rfl
  | cons z Z ih => simpa using ih

@[simp] theorem entries_ofZ {s : List Nat} {Z : List (TEntry α)} {nnz : Nat} :
    (ofZ s Z nnz).entries = Z.take nnz := by
  simp only [entries, ofZ, zip_proj]

theorem entries_eq (T : TCoo α) : T.entries = T.zip2.take T.nnz := rfl

theorem WF.length_entries {T : TCoo α} (h : T.WF) : T.entries.length = T.nnz := by
  rw [entries_eq, List.length_take, h.length_zip2]; have := h.nnz_le; omega

/-! ### resize and insert -/

theorem resize_full {s : List Nat} {Z : List (TEntry α)} {n a : Nat} {v : α} (h : Z.length ≤ n) :
    resize { ofZ s Z Z.length with alloc := a } n v =
      .ok (ofZ s (Z ++ List.replicate (n - Z.length) ([], v)) n) := by
  simp only [resize, ofZ, if_true]
  rw [reallocCopy_ok (by simp), Res.ok_bind]
  simp [stdResize, List.take_of_length_le, h]

theorem insert_store {s : List Nat} {pos : List Nat} {v : α} (Z : List (TEntry α)) (k : Nat)
    (hk : k < Z.length) :
      (do let r ← wr (ofZ s Z k).index k pos
          let w ← wr (ofZ s Z k).val k v
          Res.ok { ofZ s Z k with index := r, val := w, nnz := k + 1 })
       = .ok (ofZ s (Z.set k (pos, v)) (k + 1)) := by
  simp only [ofZ]
  rw [wr_ok (by simpa using hk), Res.ok_bind, wr_ok (by simpa using hk), Res.ok_bind]
  simp [List.map_set]

theorem insert_ofZ [Zero α] {s : List Nat} {Z : List (TEntry α)} {k : Nat} {pos : List Nat} {v : α}
    (hk : k ≤ Z.length) :
    ((ofZ s Z k).insert pos v).Sat (fun A' => ∃ Z', A' = ofZ s Z' (k + 1) ∧
      k + 1 ≤ Z'.length ∧ Z'.take (k + 1) = Z.take k ++ [(pos, v)]) := by
  have hc : (ofZ s Z k).created = true := rfl
  unfold insert
  rw [if_pos hc]
  by_cases hfull : (ofZ s Z k).nnz ≥ (ofZ s Z k).alloc
  · rw [if_pos hfull]
    have hk' : k = Z.length := by simp [ofZ] at hfull; omega
    subst hk'
    have hr := resize_full (s := s) (Z := Z) (n := 2 * Z.length + 1)
      (a := 2 * Z.length + 1) (v := (0 : α)) (by omega)
    have ha : (ofZ s Z Z.length).alloc = Z.length := rfl
    simp only [ha]
    rw [hr, Res.ok_bind, Res.pure_eq, Res.ok_bind]
    have hlen : 2 * Z.length + 1 - Z.length = Z.length + 1 := by omega
    refine ⟨_, insert_store (s := s) (pos := pos) (v := v)
      (Z ++ List.replicate (2 * Z.length + 1 - Z.length) ([], 0)) Z.length (by simp; omega), ?_⟩
    refine ⟨_, rfl, by simp; omega, ?_⟩
    rw [hlen, List.replicate_succ]
    simp [List.take_append]
  · rw [if_neg hfull, Res.pure_eq, Res.ok_bind]
    have hk' : k < Z.length := by simp [ofZ] at hfull; omega
    refine ⟨_, insert_store (s := s) (pos := pos) (v := v) Z k hk', ?_⟩
    refine ⟨_, rfl, by simp; omega, ?_⟩
    rw [List.take_succ_eq_append_getElem (by simpa using hk')]
    simp [List.take_set]
    rw [List.set_eq_of_length_le (by simp)]

theorem insert_ok [Zero α] {T : TCoo α} (h : T.WF) {pos : List Nat} {v : α} :
    (T.insert pos v).Sat (fun A' => A'.WF ∧ A'.shape = T.shape ∧
      A'.entries = T.entries ++ [(pos, v)]) := by
  have hz := h.length_zip2
  have hle := h.nnz_le
  have := insert_ofZ (s := T.shape) (Z := T.zip2) (k := T.nnz) (pos := pos) (v := v) (by omega)
  rw [← h.eq_ofZ] at this
  refine this.mono ?_
  rintro A' ⟨Z', rfl, hl, ht⟩
  exact ⟨ofZ_wf hl, rfl, by rw [entries_ofZ, ht]; rfl⟩

theorem insertAll_ok [Zero α] : ∀ (L : List (TEntry α)) {T : TCoo α}, T.WF →
    (insertAll L T).Sat (fun A' => A'.WF ∧ A'.shape = T.shape ∧ A'.entries = T.entries ++ L) := by
  intro L
  induction L with
  | nil => intro T h; exact Res.Sat.ok ⟨h, rfl, by simp⟩
  | cons e L ih =>
    intro T h
    simp only [insertAll]
    refine Res.Sat.bind (insert_ok h) ?_
    rintro A' ⟨h', hr, he⟩
    refine (ih h').mono ?_
    rintro A'' ⟨h2, hr2, he2⟩
    exact ⟨h2, by rw [hr2, hr], by rw [he2, he]; simp⟩

theorem new_wf (s : List Nat) : (new s : TCoo α).WF := ⟨rfl, rfl, rfl, Nat.le_refl _⟩

/-! ### at -/

theorem lastAtPos_append_singleton [Zero α] (L : List (TEntry α)) (e : TEntry α) (pos : List Nat) :
    lastAtPos (L ++ [e]) pos = if e.1 = pos then e.2 else lastAtPos L pos := by
  unfold lastAtPos
  by_cases h : e.1 = pos <;> simp [h]

theorem atScan_ok [Zero α] {T : TCoo α} (h : T.WF) (pos : List Nat) : ∀ k, k ≤ T.alloc →
    atScan T pos k = .ok (lastAtPos (T.zip2.take k) pos) := by
  have hz := h.length_zip2
  intro k
  induction k with
  | zero => intro _; rfl
  | succ k ih =>
    intro hk
    have hk' : k < T.zip2.length := by omega
    obtain ⟨_, l1, l2, _⟩ := h
    have e1 : rd T.index k = .ok T.zip2[k].1 := by
      rw [rd_ok (by omega)]; simp [zip2]
    have e2 : rd T.val k = .ok T.zip2[k].2 := by
      rw [rd_ok (by omega)]; simp [zip2]
    rw [List.take_succ_eq_append_getElem hk', lastAtPos_append_singleton]
    simp only [atScan, e1, e2, Res.ok_bind, ih (by omega)]
    split <;> rfl

theorem at_ok [Zero α] {T : TCoo α} (h : T.WF) (pos : List Nat) :
    T.at_ pos = .ok (lastAtPos T.entries pos) := atScan_ok h pos _ h.nnz_le

/-! ### sorting -/

def tcmp (shape : List Nat) (x y : TEntry α) : Int :=
  (rowMajor shape x.1 : Int) - rowMajor shape y.1

theorem tcmp_ok (shape : List Nat) : QS.CmpOk (tcmp (α := α) shape) where
  flip x y := by unfold tcmp; omega
  trans x y z := by unfold tcmp; omega

theorem toInt32_id {n : Nat} (h : n < 2147483648) : toInt32 n = n := by
  unfold toInt32
  rw [Nat.mod_eq_of_lt (by omega)]; omega

theorem subInt32_ok {a b : Nat} (ha : a < 2147483648) (hb : b < 2147483648) :
    subInt32 a b = .ok ((a : Int) - b) := by
  unfold subInt32
  rw [if_pos (by omega)]

/-- the first `N` elements have positions inside the shape -/
def Good (shape : List Nat) (N : Nat) (Z : List (TEntry α)) : Prop :=
  ∀ k (h : k < Z.length), k < N → InShape shape Z[k].1

theorem Good.set {shape : List Nat} {N : Nat} {Z : List (TEntry α)} (h : Good shape N Z) {i : Nat}
    {e : TEntry α} (he : InShape shape e.1) : Good shape N (Z.set i e) := by
  intro k hk hkN
  rw [List.getElem_set]
  split
  · exact he
  · exact h k (by simpa using hk) hkN

/-- key of element `k` -/
def keyOf (shape : List Nat) (Z : List (TEntry α)) (k : Nat) : Int :=
  match Z[k]? with
  | some e => (rowMajor shape e.1 : Int)
  | none => 0

theorem keyOf_eq {shape : List Nat} {Z : List (TEntry α)} {k : Nat} (h : k < Z.length) :
    keyOf shape Z k = (rowMajor shape Z[k].1 : Int) := by
  unfold keyOf; rw [List.getElem?_eq_getElem h]

section
variable {shape : List Nat} (hv : volume shape ≤ 2147483648)
include hv

theorem keyAt_ok {Z : List (TEntry α)} {N k : Nat} (hg : Good shape N Z) (hN : N ≤ Z.length)
    (hk : k < N) : keyAt shape (Z.map (·.1)) k = .ok (keyOf shape Z k) := by
  have hk' : k < Z.length := by omega
  have hs := hg k hk' hk
  unfold keyAt
  rw [rd_ok (by simpa using hk'), Res.ok_bind, List.getElem_map, getIndex_ok hs.length, Res.ok_bind,
    toInt32_id (by have := rowMajor_lt hs; omega), keyOf_eq hk']

theorem sub_ok {Z : List (TEntry α)} {N i j : Nat} (hg : Good shape N Z) (hN : N ≤ Z.length)
    (hi : i < N) (hj : j < N) :
    subInt32 (keyOf shape Z i) (keyOf shape Z j) = QS.cmpAt (tcmp shape) Z i j := by
  have hi' : i < Z.length := by omega
  have hj' : j < Z.length := by omega
  have h1 := rowMajor_lt (hg i hi' hi)
  have h2 := rowMajor_lt (hg j hj' hj)
  rw [keyOf_eq hi', keyOf_eq hj', subInt32_ok (by omega) (by omega)]
  unfold QS.cmpAt
  rw [rd_ok hi', Res.ok_bind, rd_ok hj', Res.ok_bind]
  rfl

theorem sim_scanUp {Z : List (TEntry α)} {N p hh : Nat} (hg : Good shape N Z) (hN : N ≤ Z.length)
    (hp : p < N) (hhp : hh ≤ p) : ∀ n l l', l ≤ hh →
    QS.scanUp (tcmp shape) Z p hh n l = .ok l' →
    scanUp shape (Z.map (·.1)) (keyOf shape Z p) hh n l (keyOf shape Z l) =
      .ok (l', keyOf shape Z l') := by
  intro n
  induction n with
  | zero => intro l l' _ h; cases h; rfl
  | succ n ih =>
    intro l l' hl h
    simp only [QS.scanUp, scanUp] at h ⊢
    by_cases hlt : l < hh
    · simp only [hlt, if_true] at h ⊢
      rw [sub_ok hv hg hN (by omega) hp]
      obtain ⟨d, hd, h⟩ := Res.bind_eq_ok.1 h
      rw [hd, Res.ok_bind]
      by_cases hd0 : d ≤ 0
      · simp only [hd0, if_true] at h ⊢
        rw [keyAt_ok hv hg hN (by omega), Res.ok_bind]
        exact ih _ _ (by omega) h
      · simp only [hd0, if_false] at h ⊢
        cases h; rfl
    · simp only [hlt, if_false] at h ⊢
      cases h; rfl

theorem sim_scanDown {Z : List (TEntry α)} {N p ll : Nat} (hg : Good shape N Z) (hN : N ≤ Z.length)
    (hp : p < N) : ∀ n h h', h ≤ p →
    QS.scanDown (tcmp shape) Z p ll n h = .ok h' →
    scanDown shape (Z.map (·.1)) (keyOf shape Z p) ll n h (keyOf shape Z h) =
      .ok (h', keyOf shape Z h') := by
  intro n
  induction n with
  | zero => intro l l' _ h; cases h; rfl
  | succ n ih =>
    intro l l' hl h
    simp only [QS.scanDown, scanDown] at h ⊢
    by_cases hlt : l > ll
    · simp only [hlt, if_true] at h ⊢
      rw [sub_ok hv hg hN (by omega) hp]
      obtain ⟨d, hd, h⟩ := Res.bind_eq_ok.1 h
      rw [hd, Res.ok_bind]
      by_cases hd0 : d ≥ 0
      · simp only [hd0, if_true] at h ⊢
        rw [keyAt_ok hv hg hN (by omega), Res.ok_bind]
        exact ih _ _ (by omega) h
      · simp only [hd0, if_false] at h ⊢
        cases h; rfl
    · simp only [hlt, if_false] at h ⊢
      cases h; rfl

omit hv in
theorem sim_swap {β : Type} (f : TEntry α → β) {Z Z' : List (TEntry α)} {i j : Nat}
    (h : QS.swapBuf Z i j = .ok Z') : swapBuf (Z.map f) i j = .ok (Z'.map f) := by
  simp only [QS.swapBuf, Res.bind_eq_ok, rd_eq_ok, wr_eq_ok] at h
  obtain ⟨t, ht, u, hu, b, ⟨hb1, hb2⟩, h1, h2⟩ := h
  subst hb2; subst h2
  have e1 : rd (Z.map f) i = .ok (f t) := by simp [rd_eq_ok, ht]
  have e2 : rd (Z.map f) j = .ok (f u) := by simp [rd_eq_ok, hu]
  simp only [swapBuf, e1, e2, Res.ok_bind]
  rw [wr_ok (by simpa using hb1), Res.ok_bind, wr_ok (by simpa using h1)]
  simp [List.map_set]

theorem sim_partLoop {N p : Nat} (hp : p < N) : ∀ n l hh (Z Z' : List (TEntry α)) l',
    Good shape N Z → N ≤ Z.length → l ≤ hh → hh ≤ p →
    QS.partLoop (tcmp shape) p n l hh Z = .ok (l', Z') →
    partLoop shape (keyOf shape Z p) n l hh (keyOf shape Z l) (keyOf shape Z hh)
      (Z.map (·.1)) (Z.map (·.2)) = .ok (l', Z'.map (·.1), Z'.map (·.2)) ∧
    Good shape N Z' ∧ Z'.length = Z.length := by
  intro n
  induction n with
  | zero => intro l hh Z Z' l' _ _ _ _ h; simp [QS.partLoop] at h
  | succ n ih =>
    intro l hh Z Z' l' hg hN hlh hhp h
    simp only [QS.partLoop, partLoop] at h ⊢
    obtain ⟨a, ha, h⟩ := Res.bind_eq_ok.1 h
    obtain ⟨b, hb, h⟩ := Res.bind_eq_ok.1 h
    rw [sim_scanUp hv hg hN hp hhp _ _ _ hlh ha, Res.ok_bind]
    obtain ⟨a', ha', s1, s2, -, -⟩ := QS.scanUp_sat (cmp := tcmp shape) (a := Z) (p := p) (h := hh)
      (by omega) hhp _ l rfl hlh
    rw [ha] at ha'; cases ha'
    obtain ⟨b', hb', t1, t2, -, t4⟩ := QS.scanDown_sat (cmp := tcmp shape) (a := Z) (p := p) (l := a)
      (by omega) _ hh rfl s2 hhp
    rw [hb] at hb'; cases hb'
    simp only
    rw [sim_scanDown hv hg hN hp _ _ _ hhp hb, Res.ok_bind]
    simp only
    by_cases hl : a < b
    · simp only [hl, if_true] at h ⊢
      obtain ⟨Y, hY, h⟩ := Res.bind_eq_ok.1 h
      rw [sim_swap (fun e => e.1) hY, Res.ok_bind, sim_swap (fun e => e.2) hY, Res.ok_bind]
      have hbp : b ≠ p := by
        rintro rfl
        exact t4 hl (by omega) (by unfold tcmp; omega)
      have haZ : a < Z.length := by omega
      have hbZ : b < Z.length := by omega
      rw [QS.swapBuf_ok haZ hbZ] at hY
      cases hY
      have hlen : (QS.swapL Z a b haZ hbZ).length = Z.length := by simp
      have k1 : keyOf shape (QS.swapL Z a b haZ hbZ) a = keyOf shape Z b := by
        rw [keyOf_eq (by omega), keyOf_eq hbZ, QS.getElem_swapL, if_neg (by omega), if_pos rfl]
      have k2 : keyOf shape (QS.swapL Z a b haZ hbZ) b = keyOf shape Z a := by
        rw [keyOf_eq (by omega), keyOf_eq haZ, QS.getElem_swapL, if_pos rfl]
      have k3 : keyOf shape (QS.swapL Z a b haZ hbZ) p = keyOf shape Z p := by
        rw [keyOf_eq (by omega), keyOf_eq (by omega), QS.getElem_swapL, if_neg (by omega), if_neg (by omega)]
      have hg' : Good shape N (QS.swapL Z a b haZ hbZ) := by
        unfold QS.swapL
        exact (hg.set (hg b hbZ (by omega))).set (hg a haZ (by omega))
      have := ih a b _ Z' l' hg' (by omega) (by omega) (by omega) h
      rw [k1, k2, k3] at this
      exact ⟨this.1, this.2.1, by rw [this.2.2, hlen]⟩
    · simp only [hl, if_false] at h ⊢
      cases h
      exact ⟨rfl, hg, rfl⟩

theorem sim_qSort {N : Nat} : ∀ n lo hi1 (Z Z' : List (TEntry α)),
    Good shape N Z → N ≤ Z.length → hi1 ≤ N →
    QS.qSort (tcmp shape) n lo hi1 Z = .ok Z' →
    qSort shape n lo hi1 (Z.map (·.1)) (Z.map (·.2)) = .ok (Z'.map (·.1), Z'.map (·.2)) ∧
      Good shape N Z' ∧ Z'.length = Z.length := by
  intro n
  induction n with
  | zero => intro lo hi1 Z Z' _ _ _ h; simp [QS.qSort] at h
  | succ n ih =>
    intro lo hi1 Z Z' hg hN hhi h
    simp only [QS.qSort, qSort] at h ⊢
    split at h
    · rename_i hl; simp only [hl, if_true]; cases h; exact ⟨rfl, hg, rfl⟩
    · rename_i hl
      simp only [hl, if_false]
      obtain ⟨x, hx, h⟩ := Res.bind_eq_ok.1 h
      obtain ⟨⟨l, Y⟩, hY, h⟩ := Res.bind_eq_ok.1 h
      obtain ⟨y, hy, h⟩ := Res.bind_eq_ok.1 h
      obtain ⟨b, hb, h⟩ := Res.bind_eq_ok.1 h
      obtain ⟨c, hc, h⟩ := Res.bind_eq_ok.1 h
      rw [rd_eq_ok] at hx hy
      rw [wr_eq_ok] at hb hc
      obtain ⟨hb1, rfl⟩ := hb
      obtain ⟨hc1, rfl⟩ := hc
      have e1 : rd (Z.map (·.1)) (hi1 - 1) = .ok x.1 := by simp [rd_eq_ok, hx]
      have e3 : rd (Z.map (·.2)) (hi1 - 1) = .ok x.2 := by simp [rd_eq_ok, hx]
      have f1 : rd (Y.map (·.1)) l = .ok y.1 := by simp [rd_eq_ok, hy]
      have f3 : rd (Y.map (·.2)) l = .ok y.2 := by simp [rd_eq_ok, hy]
      have hc2 : l < Y.length := by simpa using hc1
      obtain ⟨sp, hgY, hlY⟩ := sim_partLoop hv (N := N) (p := hi1 - 1) (by omega) _ _ _ _ _ _ hg hN
        (by omega) (Nat.le_refl _) hY
      rw [e1, Res.ok_bind, e3, Res.ok_bind, keyAt_ok hv hg hN (by omega), Res.ok_bind,
        keyAt_ok hv hg hN (by omega), Res.ok_bind, Res.ok_bind, sp, Res.ok_bind]
      simp only
      rw [f1, Res.ok_bind]
      rw [wr_ok (by simpa using hb1), Res.ok_bind, wr_ok (by simpa using hc2),
        Res.ok_bind, f3, Res.ok_bind, wr_ok (by simpa using hb1),
        Res.ok_bind, wr_ok (by simpa using hc2), Res.ok_bind]
      have g1 : ((Y.map (·.1)).set (hi1 - 1) y.1).set l x.1 =
          ((Y.set (hi1 - 1) y).set l x).map (·.1) := by simp [List.map_set]
      have g3 : ((Y.map (·.2)).set (hi1 - 1) y.2).set l x.2 =
          ((Y.set (hi1 - 1) y).set l x).map (·.2) := by simp [List.map_set]
      rw [g1, g3]
      have hxs : InShape shape x.1 := by
        have hlt : hi1 - 1 < Z.length := by omega
        rw [List.getElem?_eq_getElem hlt] at hx
        cases hx
        exact hg _ hlt (by omega)
      obtain ⟨l', hr', r1, r2, -, -⟩ := QS.partLoop_sat (tcmp_ok (α := α) shape) (lo := lo) (p := hi1 - 1)
        (hi1 - lo) lo (hi1 - 1) Z (by omega) (Nat.le_refl _) (by omega) (Nat.le_refl _) (by omega)
        (by intro k _ h1 h2; omega)
        (by intro k hk h1 h2; have : k = hi1 - 1 := by omega
            subst this; unfold tcmp; omega)
        (by intro _; exact Or.inl rfl)
      rw [hY] at hr'; cases hr'
      simp only at r1 r2
      have hys : InShape shape y.1 := by
        rw [List.getElem?_eq_getElem hc2] at hy
        cases hy
        exact hgY _ hc2 (by omega)
      have hgW : Good shape N ((Y.set (hi1 - 1) y).set l x) := (hgY.set hys).set hxs
      have hlW : ((Y.set (hi1 - 1) y).set l x).length = Y.length := by simp
      split at h
      · rename_i hs
        simp only [hs, if_true]
        obtain ⟨W, hW, h⟩ := Res.bind_eq_ok.1 h
        obtain ⟨w1, w2, w3⟩ := ih _ _ _ _ hgW (by omega) (by omega) hW
        rw [w1, Res.ok_bind]
        obtain ⟨v1, v2, v3⟩ := ih _ _ _ _ w2 (by omega) (by omega) h
        exact ⟨v1, v2, by omega⟩
      · rename_i hs
        simp only [hs, if_false]
        obtain ⟨W, hW, h⟩ := Res.bind_eq_ok.1 h
        obtain ⟨w1, w2, w3⟩ := ih _ _ _ _ hgW (by omega) (by omega) hW
        rw [w1, Res.ok_bind]
        obtain ⟨v1, v2, v3⟩ := ih _ _ _ _ w2 (by omega) (by omega) h
        exact ⟨v1, v2, by omega⟩

theorem qSort_entries {Z : List (TEntry α)} {nnz : Nat} (h : nnz ≤ Z.length)
    (hg : InsideT shape (Z.take nnz)) :
    ∃ Z' : List (TEntry α), qSort shape (nnz + 1) 0 nnz (Z.map (·.1)) (Z.map (·.2)) =
        .ok (Z'.map (·.1), Z'.map (·.2)) ∧
      Z'.length = Z.length ∧ (Z'.take nnz).Perm (Z.take nnz) ∧ SortedT shape (Z'.take nnz) := by
  obtain ⟨Z', hZ', hr, hs⟩ := QS.qSort_sat (tcmp_ok (α := α) shape) (nnz + 1) 0 nnz Z h (by omega)
  have hg' : Good shape nnz Z := by
    intro k hk hkn
    exact hg _ (by
      rw [List.mem_take_iff_getElem]
      exact ⟨k, by omega, rfl⟩)
  obtain ⟨s1, _, s3⟩ := sim_qSort hv _ _ _ _ _ hg' h (Nat.le_refl _) hZ'
  refine ⟨Z', s1, s3, Coo.take_perm_of_frame hr.perm (fun k hk => hr.frame k (Or.inr hk)), ?_⟩
  unfold SortedT
  rw [List.pairwise_iff_getElem]
  intro i j hi hj hij
  have := hs i j (by simp at hi; omega) (by simp at hj; omega) (by omega) hij (by simp at hj; omega)
  unfold tcmp at this
  simp only [List.getElem_take]
  omega

end

theorem mergeStep_ok (Z : List (TEntry α)) (k i : Nat) (hki : k < i) (hi : i < Z.length)
    (hk : k < Z.length) :
    mergeStep i (k, Z.map (·.1), Z.map (·.2)) =
      if Z[k].1 = Z[i].1 then .ok (k, (Z.set k Z[i]).map (·.1), (Z.set k Z[i]).map (·.2))
      else .ok (k + 1, (Z.set (k+1) Z[i]).map (·.1), (Z.set (k+1) Z[i]).map (·.2)) := by
  have a1 : rd (Z.map (·.1)) k = .ok Z[k].1 := by rw [rd_ok (by simpa using hk)]; simp
  have a2 : rd (Z.map (·.1)) i = .ok Z[i].1 := by rw [rd_ok (by simpa using hi)]; simp
  have a3 : rd (Z.map (·.2)) i = .ok Z[i].2 := by rw [rd_ok (by simpa using hi)]; simp
  simp only [mergeStep, a1, a2, a3, Res.ok_bind]
  by_cases h : Z[k].1 = Z[i].1
  · simp only [h, ne_eq, not_true, if_false, if_true]
    rw [wr_ok (by simpa using hk), Res.ok_bind]
    simp only [List.map_set]
    congr 2
    rw [← h, show Z[k].1 = (Z.map (·.1))[k]'(by simpa using hk) by simp, List.set_getElem_self]
  · simp only [h, ne_eq, not_false_eq_true, if_true, if_false]
    rw [wr_ok (by simp; omega), Res.ok_bind, wr_ok (by simp; omega), Res.ok_bind]
    simp [List.map_set]

theorem sort_false_ok {T : TCoo α} (h : T.WF) (hv : volume T.shape ≤ 2147483648)
    (hg : InsideT T.shape T.entries) :
    (T.sort false).Sat (fun A' => A'.WF ∧ A'.shape = T.shape ∧
      A'.nnz = T.nnz ∧ A'.entries.Perm T.entries ∧ SortedT T.shape A'.entries) := by
  have hz := h.length_zip2
  have hle := h.nnz_le
  have hA := h.eq_ofZ
  obtain ⟨Z', hq, hlen, hp, hs⟩ := qSort_entries hv (Z := T.zip2) (nnz := T.nnz) (by omega) hg
  refine ⟨ofZ T.shape Z' T.nnz, ?_, ofZ_wf (by omega), rfl, rfl, ?_, ?_⟩
  · have : T.sort false = (ofZ T.shape T.zip2 T.nnz).sort false := by rw [← hA]
    rw [this]
    simp only [sort, ofZ]
    rw [hq, Res.ok_bind]
    simp [hlen]
  · rw [entries_ofZ]; exact hp
  · rw [entries_ofZ]; exact hs

theorem sort_true_ok {T : TCoo α} (h : T.WF) (hpos : 1 ≤ T.nnz) (hv : volume T.shape ≤ 2147483648)
    (hg : InsideT T.shape T.entries) :
    (T.sort true).Sat (fun A' => A'.WF ∧ A'.shape = T.shape ∧ A'.nnz ≤ T.nnz ∧
      ∃ S, S.Perm T.entries ∧ SortedT T.shape S ∧
        A'.entries = KL.keepLast (fun e : TEntry α => e.1) S) := by
  have hz := h.length_zip2
  have hle := h.nnz_le
  have hA := h.eq_ofZ
  obtain ⟨Z', hq, hlen, hp, hs⟩ := qSort_entries hv (Z := T.zip2) (nnz := T.nnz) (by omega) hg
  obtain ⟨k, Z'', hm, hlen2, hk, ht⟩ := KL.mergeLoop (key := fun e : TEntry α => e.1)
    (fun k Z => (k, Z.map (·.1), Z.map (·.2))) mergeStep
    (fun Z k i h1 h2 h3 => mergeStep_ok Z k i h1 h2 h3) (Z := Z') (nnz := T.nnz) (by omega) hpos
  refine ⟨ofZ T.shape Z'' (k + 1), ?_, ofZ_wf (by omega), rfl, hk, Z'.take T.nnz, hp, hs, ?_⟩
  · have : T.sort true = (ofZ T.shape T.zip2 T.nnz).sort true := by rw [← hA]
    rw [this]
    simp only [sort, ofZ]
    rw [hq, Res.ok_bind]
    simp only [if_true]
    rw [hm, Res.ok_bind]
    simp [hlen, hlen2]
  · rw [entries_ofZ]; exact ht

end TCoo
end Verif
