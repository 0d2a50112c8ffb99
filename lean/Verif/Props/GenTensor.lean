import Verif.Model.GenTensor
import Verif.Props.TensorCoo
import Verif.Props.GenRandom
import Mathlib.Data.Finset.Card
import Mathlib.Data.Finset.Image

/-!
C114: `random_structure_tensor` stores exactly `nnzrow` distinct positions in every line (all indices but the last
fixed), for every stream of random draws and every shape.
-/

namespace Verif
namespace Gen

open Spec

variable {α : Type}

/-- the last indices stored behind the prefix `pre` -/
def lastOf (N : Nat) (E : List (TEntry α)) (pre : List Nat) : Finset Nat :=
  (Finset.range N).filter fun c => pre ++ [c] ∈ E.map Prod.fst

theorem mem_lastOf {N : Nat} {E : List (TEntry α)} {pre : List Nat} {c : Nat} :
    c ∈ lastOf N E pre ↔ c < N ∧ ∃ v, (pre ++ [c], v) ∈ E := by
  unfold lastOf
  rw [Finset.mem_filter, Finset.mem_range, List.mem_map]
  constructor
  · rintro ⟨h, ⟨p, v⟩, h1, h2⟩
    dsimp only at h2
    subst h2
    exact ⟨h, v, h1⟩
  · rintro ⟨h, v, h1⟩
    exact ⟨h, _, h1, rfl⟩

theorem snoc_inj {a b : List Nat} {c d : Nat} (h : a ++ [c] = b ++ [d]) : a = b ∧ c = d := by
  have := List.append_inj' h rfl
  exact ⟨this.1, by simpa using this.2⟩

theorem lastAtPos_ne_zero [Zero α] {E : List (TEntry α)} {val : α} (hval : val ≠ 0) (hE : ∀ e ∈ E, e.2 = val)
    (pos : List Nat) : lastAtPos E pos ≠ 0 ↔ ∃ v, (pos, v) ∈ E := by
  unfold lastAtPos
  cases h : E.reverse.find? (fun e => e.1 == pos) with
  | none =>
    rw [List.find?_eq_none] at h
    simp only [ne_eq, not_true_eq_false, false_iff, not_exists]
    intro v hv
    exact h _ (List.mem_reverse.2 hv) (by simp)
  | some e =>
    have h1 := List.mem_of_find?_eq_some h
    have h2 := List.find?_some h
    rw [List.mem_reverse] at h1
    dsimp only
    rw [hE e h1]
    refine ⟨fun _ => ⟨e.2, ?_⟩, fun _ => hval⟩
    have : e.1 = pos := by simpa using h2
    rw [← this]; exact h1

/-- what is known after some lines -/
structure Lines (T : TCoo α) (outer : List Nat) (N : Nat) (val : α) (done : List (List Nat)) : Prop where
  wf : T.WF
  shape : T.shape = outer ++ [N]
  part : ∀ e ∈ T.entries, ∃ pre ∈ done, ∃ c, c < N ∧ e = (pre ++ [c], val)

theorem lastOf_insert {N : Nat} {E : List (TEntry α)} {pre : List Nat} {c : Nat} {val : α} (h : c < N) :
    lastOf N (E ++ [(pre ++ [c], val)]) pre = insert c (lastOf N E pre) := by
  ext d
  simp only [mem_lastOf, List.mem_append, List.mem_singleton, Finset.mem_insert, Prod.mk.injEq]
  constructor
  · rintro ⟨hd, v, h1 | ⟨h1, -⟩⟩
    · exact .inr ⟨hd, v, h1⟩
    · exact .inl (snoc_inj h1).2
  · rintro (rfl | ⟨hd, v, h1⟩)
    · exact ⟨h, val, .inr ⟨rfl, rfl⟩⟩
    · exact ⟨hd, v, .inl h1⟩

theorem lastOf_other {N : Nat} {E : List (TEntry α)} {pre q : List Nat} {c : Nat} {val : α} (h : q ≠ pre) :
    lastOf N (E ++ [(pre ++ [c], val)]) q = lastOf N E q := by
  ext d
  simp only [mem_lastOf, List.mem_append, List.mem_singleton, Prod.mk.injEq]
  constructor
  · rintro ⟨hd, v, h1 | ⟨h1, -⟩⟩
    · exact ⟨hd, v, h1⟩
    · exact absurd (snoc_inj h1).1 h
  · rintro ⟨hd, v, h1⟩
    exact ⟨hd, v, .inl h1⟩

theorem Lines.insert [Zero α] {T : TCoo α} {outer : List Nat} {N : Nat} {val : α} {done : List (List Nat)}
    {pre : List Nat} {c : Nat} (h : Lines T outer N val done) (hp : pre ∈ done) (hc : c < N) :
    ∃ T', T.insert (pre ++ [c]) val = .ok T' ∧ Lines T' outer N val done ∧
      T'.entries = T.entries ++ [(pre ++ [c], val)] := by
  obtain ⟨T', h1, h2, h3, h4⟩ := TCoo.insert_ok h.wf (pos := pre ++ [c]) (v := val)
  refine ⟨T', h1, ⟨h2, h3.trans h.shape, ?_⟩, h4⟩
  intro e he
  rw [h4] at he
  rcases List.mem_append.1 he with he | he
  · exact h.part e he
  · exact ⟨pre, hp, c, hc, List.mem_singleton.1 he⟩

theorem lineT_ok [Zero α] [DecidableEq α] {outer : List Nat} {N k : Nat} {val : α} (hval : val ≠ 0)
    {done : List (List Nat)} {pre : List Nat} (hp : pre ∈ done) : ∀ (ds : List Nat) (left : Nat) (T : TCoo α),
    (∀ d ∈ ds, d < N) → Lines T outer N val done → (lastOf N T.entries pre).card + left = k →
    lineT pre val ds left T = .ok none ∨
    ∃ ds' T', lineT pre val ds left T = .ok (some (ds', T')) ∧ (∃ u, ds = u ++ ds') ∧ Lines T' outer N val done ∧
      (lastOf N T'.entries pre).card = k ∧ ∀ q, q ≠ pre → lastOf N T'.entries q = lastOf N T.entries q := by
  intro ds
  induction ds with
  | nil =>
    intro left T hd h hk
    cases left with
    | zero => exact .inr ⟨[], T, rfl, ⟨[], rfl⟩, h, by omega, fun _ _ => rfl⟩
    | succ left => exact .inl rfl
  | cons c ds ih =>
    intro left T hd h hk
    cases left with
    | zero => exact .inr ⟨c :: ds, T, rfl, ⟨[], rfl⟩, h, by omega, fun _ _ => rfl⟩
    | succ left =>
      have hc : c < N := hd c (by simp)
      obtain ⟨T1, hT1, h1, he1⟩ := h.insert hp hc
      have hiff := lastAtPos_ne_zero hval (E := T.entries) (fun e he => by
        obtain ⟨_, _, _, _, rfl⟩ := h.part e he; rfl) (pre ++ [c])
      have hmem : c ∈ lastOf N T.entries pre ↔ lastAtPos T.entries (pre ++ [c]) ≠ 0 := by
        rw [hiff, mem_lastOf]; exact ⟨fun h => h.2, fun h => ⟨hc, h⟩⟩
      have hins := lastOf_insert (E := T.entries) (pre := pre) (val := val) hc
      rw [← he1] at hins
      have fin : ∀ left', (lastOf N T1.entries pre).card + left' = k →
          lineT pre val ds left' T1 = .ok none ∨
          ∃ ds' T', lineT pre val ds left' T1 = .ok (some (ds', T')) ∧ (∃ u, c :: ds = u ++ ds') ∧
            Lines T' outer N val done ∧ (lastOf N T'.entries pre).card = k ∧
            ∀ q, q ≠ pre → lastOf N T'.entries q = lastOf N T.entries q := by
        intro left' hk'
        rcases ih left' T1 (fun d hd' => hd d (by simp [hd'])) h1 hk' with h' | ⟨ds', T', e1, ⟨u, e2⟩, e3, e4, e5⟩
        · exact .inl h'
        · refine .inr ⟨ds', T', e1, ⟨c :: u, by rw [e2]; rfl⟩, e3, e4, fun q hq => ?_⟩
          rw [e5 q hq, he1, lastOf_other hq]
      simp only [lineT, TCoo.at_ok h.wf, hT1, Res.ok_bind]
      by_cases hx : lastAtPos T.entries (pre ++ [c]) ≠ 0
      · rw [if_pos hx]
        apply fin
        rw [hins, Finset.insert_eq_of_mem (hmem.2 hx)]; exact hk
      · rw [if_neg hx]
        apply fin
        rw [hins, Finset.card_insert_of_notMem (fun h => hx (hmem.1 h))]; omega

/-- draws that cover all last indices finish the line -/
theorem lineT_finishes [Zero α] [DecidableEq α] {outer : List Nat} {N k : Nat} {val : α} (hval : val ≠ 0)
    (hkN : k < N) {done : List (List Nat)} {pre : List Nat} (hp : pre ∈ done) (b : List Nat) :
    ∀ (a : List Nat) (left : Nat) (T : TCoo α), (∀ d ∈ a, d < N) → Lines T outer N val done →
    (lastOf N T.entries pre).card + left = k → (∀ c, c < N → c ∈ a ∨ c ∈ lastOf N T.entries pre) →
    ∃ a' T', lineT pre val (a ++ b) left T = .ok (some (a' ++ b, T')) := by
  intro a
  induction a with
  | nil =>
    intro left T hd h hk hcov
    exfalso
    have : Finset.range N ⊆ lastOf N T.entries pre := by
      intro c hc
      rcases hcov c (Finset.mem_range.1 hc) with h | h
      · simp at h
      · exact h
    have := Finset.card_le_card this
    rw [Finset.card_range] at this
    omega
  | cons c a ih =>
    intro left T hd h hk hcov
    cases left with
    | zero => exact ⟨c :: a, T, rfl⟩
    | succ left =>
      have hc : c < N := hd c (by simp)
      obtain ⟨T1, hT1, h1, he1⟩ := h.insert hp hc
      have hiff := lastAtPos_ne_zero hval (E := T.entries) (fun e he => by
        obtain ⟨_, _, _, _, rfl⟩ := h.part e he; rfl) (pre ++ [c])
      have hmem : c ∈ lastOf N T.entries pre ↔ lastAtPos T.entries (pre ++ [c]) ≠ 0 := by
        rw [hiff, mem_lastOf]; exact ⟨fun h => h.2, fun h => ⟨hc, h⟩⟩
      have hins := lastOf_insert (E := T.entries) (pre := pre) (val := val) hc
      rw [← he1] at hins
      have hcov' : ∀ d, d < N → d ∈ a ∨ d ∈ lastOf N T1.entries pre := by
        intro d hdN
        rw [hins, Finset.mem_insert]
        rcases hcov d hdN with h | h
        · rcases List.mem_cons.1 h with h | h
          · exact .inr (.inl h)
          · exact .inl h
        · exact .inr (.inr h)
      simp only [List.cons_append, lineT, TCoo.at_ok h.wf, hT1, Res.ok_bind]
      by_cases hx : lastAtPos T.entries (pre ++ [c]) ≠ 0
      · rw [if_pos hx]
        refine ih _ T1 (fun d h => hd d (by simp [h])) h1 ?_ hcov'
        rw [hins, Finset.insert_eq_of_mem (hmem.2 hx)]; exact hk
      · rw [if_neg hx]
        refine ih _ T1 (fun d h => hd d (by simp [h])) h1 ?_ hcov'
        rw [hins, Finset.card_insert_of_notMem (fun h => hx (hmem.1 h))]; omega

theorem Lines.more {T : TCoo α} {outer : List Nat} {N : Nat} {val : α} {done more : List (List Nat)}
    (h : Lines T outer N val done) : Lines T outer N val (done ++ more) :=
  ⟨h.wf, h.shape, fun e he => by
    obtain ⟨p, hp, r⟩ := h.part e he
    exact ⟨p, List.mem_append_left _ hp, r⟩⟩

theorem Lines.fresh {T : TCoo α} {outer : List Nat} {N : Nat} {val : α} {done : List (List Nat)}
    (h : Lines T outer N val done) {pre : List Nat} (hp : pre ∉ done) : lastOf N T.entries pre = ∅ := by
  rw [Finset.eq_empty_iff_forall_notMem]
  intro c hc
  obtain ⟨-, v, hv⟩ := mem_lastOf.1 hc
  obtain ⟨q, hq, d, -, e⟩ := h.part _ hv
  have := (snoc_inj (congrArg Prod.fst e)).1
  exact hp (this ▸ hq)

theorem linesT_ok [Zero α] [DecidableEq α] {outer : List Nat} {N k : Nat} {val : α} (hval : val ≠ 0) (hkN : k < N) :
    ∀ (ls done : List (List Nat)) (ds : List Nat) (T : TCoo α), (∀ d ∈ ds, d < N) → (done ++ ls).Nodup →
    Lines T outer N val done → (∀ p ∈ done, (lastOf N T.entries p).card = k) →
    (linesT k val ls ds T = .ok none ∧ ¬ Covers N ls.length ds) ∨
    ∃ ds' T', linesT k val ls ds T = .ok (some (ds', T')) ∧ Lines T' outer N val (done ++ ls) ∧
      ∀ p ∈ done ++ ls, (lastOf N T'.entries p).card = k := by
  intro ls
  induction ls with
  | nil => intro done ds T _ _ h hk; exact .inr ⟨ds, T, rfl, h.more, by simpa using hk⟩
  | cons pre ls ih =>
    intro done ds T hd hnd h hk
    have hp : pre ∉ done := by
      intro hmem
      have := List.disjoint_of_nodup_append hnd hmem
      simp at this
    have h1 : Lines T outer N val (done ++ [pre]) := h.more
    have hm : pre ∈ done ++ [pre] := by simp
    have hc0 : (lastOf N T.entries pre).card + k = k := by rw [h.fresh hp]; simp
    simp only [linesT]
    rcases lineT_ok hval hm ds k T hd h1 hc0 with hn | ⟨ds', T', e1, ⟨u, e2⟩, e3, e4, e5⟩
    · rw [hn]
      refine .inl ⟨rfl, ?_⟩
      rintro ⟨a, b, r1, r2, -⟩
      obtain ⟨a', T1, hf⟩ := lineT_finishes hval hkN hm b a k T (fun d h' => hd d (by rw [r1]; simp [h'])) h1 hc0
        (fun c hc => .inl (r2 c hc))
      rw [← r1, hn] at hf
      cases hf
    · rw [e1]
      simp only [Res.ok_bind]
      have hk' : ∀ p ∈ done ++ [pre], (lastOf N T'.entries p).card = k := by
        intro p hpm
        rcases List.mem_append.1 hpm with hpm | hpm
        · rw [e5 p (fun e => hp (e ▸ hpm))]; exact hk p hpm
        · rw [List.mem_singleton.1 hpm]; exact e4
      rcases ih (done ++ [pre]) ds' T' (fun d h' => hd d (by rw [e2]; simp [h'])) (by simpa using hnd) e3 hk' with
        ⟨r1, r2⟩ | ⟨ds'', T'', r1, r2, r3⟩
      · refine .inl ⟨r1, ?_⟩
        rintro ⟨a, b, s1, s2, s3⟩
        obtain ⟨a', T1, hf⟩ := lineT_finishes hval hkN hm b a k T (fun d h' => hd d (by rw [s1]; simp [h'])) h1 hc0
          (fun c hc => .inl (s2 c hc))
        rw [← s1, e1] at hf
        cases hf
        exact r2 (s3.prepend a')
      · exact .inr ⟨ds'', T'', r1, by simpa using r2, by simpa using r3⟩

theorem mem_loopIndices : ∀ {outer pre : List Nat}, pre ∈ loopIndices outer ↔ InShape outer pre
  | [], pre => by simp [loopIndices, InShape]
  | m :: ms, pre => by
    unfold loopIndices InShape
    rw [List.mem_flatMap]
    constructor
    · rintro ⟨i, hi, h⟩
      obtain ⟨q, hq, rfl⟩ := List.mem_map.1 h
      exact .cons (List.mem_range.1 hi) (mem_loopIndices.1 hq)
    · intro h
      cases h with
      | cons h1 h2 => exact ⟨_, List.mem_range.2 h1, List.mem_map.2 ⟨_, mem_loopIndices.2 h2, rfl⟩⟩

theorem loopIndices_nodup : ∀ outer, (loopIndices outer).Nodup
  | [] => by simp [loopIndices]
  | m :: ms => by
    unfold loopIndices
    rw [List.nodup_flatMap]
    constructor
    · intro i _
      exact (loopIndices_nodup ms).map (fun a b h => by simpa using h)
    · refine List.nodup_range.imp ?_
      intro i j hij
      rw [Function.onFun, List.disjoint_left]
      intro p h1 h2
      obtain ⟨q, -, rfl⟩ := List.mem_map.1 h1
      obtain ⟨r, -, e⟩ := List.mem_map.1 h2
      simp only [List.cons.injEq] at e
      exact hij e.1.symm

theorem loopIndices_length : ∀ outer, (loopIndices outer).length = volume outer
  | [] => rfl
  | m :: ms => by
    unfold loopIndices volume
    rw [List.length_flatMap]
    simp [loopIndices_length ms, volume]

/-- the positions stored in one line are as many as the last indices -/
theorem card_lastOf {outer : List Nat} {N : Nat} {E : List (TEntry α)} {s : List Nat} (hs : StrictT s E)
    (hE : ∀ e ∈ E, ∃ pre c, c < N ∧ e.1 = pre ++ [c]) (pre : List Nat) :
    (E.filter fun e => e.1.dropLast = pre).length = (lastOf N E pre).card := by
  have hnd : ((E.filter fun e => e.1.dropLast = pre).map Prod.fst).Nodup := by
    rw [List.Nodup, List.pairwise_map]
    refine (hs.filter _).imp ?_
    intro a b hab e
    rw [e] at hab
    exact absurd hab (lt_irrefl _)
  rw [← List.length_map (f := Prod.fst), ← List.toFinset_card_of_nodup hnd,
    ← Finset.card_image_of_injective (lastOf N E pre) (f := fun c => pre ++ [c]) (fun a b h => (snoc_inj h).2)]
  congr 1
  ext p
  simp only [List.mem_toFinset, List.mem_map, List.mem_filter, decide_eq_true_eq, Finset.mem_image, mem_lastOf]
  constructor
  · rintro ⟨e, ⟨h1, h2⟩, rfl⟩
    obtain ⟨q, c, hc, h3⟩ := hE e h1
    rw [h3, List.dropLast_concat] at h2
    subst h2
    exact ⟨c, ⟨hc, e.2, by rw [← h3]; exact h1⟩, h3.symm⟩
  · rintro ⟨c, ⟨hc, v, hv⟩, rfl⟩
    exact ⟨_, ⟨hv, by rw [List.dropLast_concat]⟩, rfl⟩

theorem inShape_snoc {outer pre : List Nat} {N c : Nat} (h : InShape outer pre) (hc : c < N) :
    InShape (outer ++ [N]) (pre ++ [c]) := by
  unfold InShape at h ⊢
  exact List.rel_append h (.cons hc .nil)

/-- **C114.** Whatever the shape (at most 2^31 positions), the draws and the non-zero value, the generator either waits
for more draws - which is impossible once they contain as many full rounds over the last index as there are lines - or
returns a tensor of that shape in row-major order without repeated positions, in which every line (all indices but the
last fixed) stores exactly `nnzrow` elements, all inside the tensor and all equal to `val`. -/
theorem C114_random_tensor_partial [Zero α] [DecidableEq α] (outer : List Nat) (L nnzrow : Nat) (val : α)
    (draws : List Nat) (hdraws : ∀ d ∈ draws, d < L) (hval : val ≠ 0) (hpos : 0 < volume outer) (hk0 : 0 < nnzrow)
    (hk : nnzrow < L) (hv : volume (outer ++ [L]) ≤ 2 ^ 31) :
    (randomTensor outer L nnzrow val draws = .ok none ∧ ¬ Covers L (volume outer) draws) ∨
    ∃ T, randomTensor outer L nnzrow val draws = .ok (some T) ∧ T.WF ∧ T.shape = outer ++ [L] ∧
      StrictT (outer ++ [L]) T.entries ∧ InsideT (outer ++ [L]) T.entries ∧ (∀ e ∈ T.entries, e.2 = val) ∧
      ∀ pre, InShape outer pre → (T.entries.filter fun e => e.1.dropLast = pre).length = nnzrow := by
  unfold randomTensor
  rw [if_neg (by omega)]
  have h0 : Lines (TCoo.new (outer ++ [L]) : TCoo α) outer L val [] :=
    ⟨TCoo.new_wf _, rfl, by simp [TCoo.new, TCoo.entries]⟩
  rcases linesT_ok hval hk (loopIndices outer) [] draws _ hdraws (by simpa using loopIndices_nodup outer) h0
    (by simp) with ⟨h1, h2⟩ | ⟨ds', T, h1, h2, h3⟩
  · rw [h1]
    rw [loopIndices_length] at h2
    exact .inl ⟨rfl, h2⟩
  · right
    simp only [List.nil_append] at h2 h3
    have hin : InsideT T.shape T.entries := by
      intro e he
      obtain ⟨p, hp, c, hc, rfl⟩ := h2.part e he
      rw [h2.shape]
      exact inShape_snoc (mem_loopIndices.1 hp) hc
    have hne : 1 ≤ T.nnz := by
      rw [← loopIndices_length] at hpos
      obtain ⟨p, hp⟩ := List.exists_mem_of_length_pos hpos
      have h4 := h3 p hp
      obtain ⟨c, hc⟩ := Finset.card_pos.1 (show 0 < (lastOf L T.entries p).card by omega)
      obtain ⟨-, v, hv⟩ := mem_lastOf.1 hc
      have := h2.wf.length_entries
      have := List.length_pos_of_mem hv
      omega
    obtain ⟨B, hB, hwf, hs, hst, hsub, hsup, -⟩ := C37_sort_merge_partial h2.wf hne (by rw [h2.shape]; exact hv) hin
    have hpart : ∀ e ∈ B.entries, ∃ pre c, c < L ∧ e.1 = pre ++ [c] := by
      intro e he
      obtain ⟨p, -, c, hc, e'⟩ := h2.part e (hsub e he)
      exact ⟨p, c, hc, by rw [e']⟩
    refine ⟨B, by simp only [h1, Res.ok_bind, hB], hwf, hs.trans h2.shape, h2.shape ▸ hst, ?_, ?_, ?_⟩
    · intro e he; rw [← h2.shape]; exact hin e (hsub e he)
    · intro e he
      obtain ⟨p, -, c, -, e'⟩ := h2.part e (hsub e he)
      rw [e']
    · intro pre hpre
      rw [card_lastOf (outer := outer) hst hpart, ← h3 pre (mem_loopIndices.2 hpre)]
      congr 1
      ext c
      rw [mem_lastOf, mem_lastOf]
      constructor
      · rintro ⟨hc, v, hv⟩; exact ⟨hc, v, hsub _ hv⟩
      · rintro ⟨hc, v, hv⟩
        obtain ⟨e, he1, he2⟩ := hsup _ hv
        exact ⟨hc, e.2, by dsimp only at he2; rw [← he2]; exact he1⟩

/-- A request for at least as many elements per line as a line has positions is refused. -/
theorem C114_reject [Zero α] [DecidableEq α] (outer : List Nat) (L nnzrow : Nat) (val : α) (draws : List Nat)
    (h : L ≤ nnzrow) : ∃ e, randomTensor outer L nnzrow val draws = .throw e := by
  simp [randomTensor, h]

/-- an instance with three extents; the repeated draw is drawn again -/
example : ∃ T : TCoo Int, randomTensor3 1 2 3 2 5 [1, 1, 0, 2, 2, 1] = .ok (some T) ∧
    T.entries = [([0, 0, 0], 5), ([0, 0, 1], 5), ([0, 1, 1], 5), ([0, 1, 2], 5)] := ⟨_, rfl, rfl⟩

/-- an instance with four extents -/
example : ∃ T : TCoo Int, randomTensor4 2 1 1 2 1 5 [1, 0] = .ok (some T) ∧
    T.entries = [([0, 0, 0, 1], 5), ([1, 0, 0, 0], 5)] := ⟨_, rfl, rfl⟩

/-- Violated: with the value 0 a repeated position is not detected and a line is left with fewer elements. -/
theorem C114_zero_value_violated : ∃ T : TCoo Int, randomTensor2 1 3 2 0 [1, 1] = .ok (some T) ∧
    (T.entries.filter fun e => e.1.dropLast = [0]).length = 1 := ⟨_, rfl, by decide⟩

/-- Violated: `nnzrow = 0` (or an extent 0) yields a tensor that claims one stored element and stores none. -/
theorem C114_empty_violated : (∃ T : TCoo Int, randomTensor2 1 3 0 7 [] = .ok (some T) ∧ T.nnz = 1 ∧ T.val = []) ∧
    ∃ T : TCoo Int, randomTensor2 0 3 2 7 [] = .ok (some T) ∧ T.nnz = 1 ∧ T.val = [] :=
  ⟨⟨_, rfl, rfl, rfl⟩, _, rfl, rfl, rfl⟩

end Gen
end Verif
