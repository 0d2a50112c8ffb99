import Verif.Props.Mm
import Verif.Props.EndToEnd
import Verif.Spec.MmSpec

/-!
C112: `input_mm` on files that were not written by `output_mm`.
-/

namespace Verif.Mm

open Verif.Spec

variable {α : Type}

theorem isWs_iff (c : Char) : isWs c = true ↔ Blank c := by
  unfold isWs Blank
  simp only [Bool.or_eq_true, beq_iff_eq, List.mem_cons, List.not_mem_nil, or_false]
  tauto

theorem isWs_false (c : Char) : isWs c = false ↔ ¬ Blank c := by
  rw [← isWs_iff]; simp

theorem digit_iff (c : Char) : c.isDigit = true ↔ '0' ≤ c ∧ c ≤ '9' := by
  unfold Char.isDigit
  simp only [Bool.and_eq_true, decide_eq_true_eq]
  rfl

theorem blank_not_digit {c : Char} (h : Blank c) : c.isDigit = false := by
  unfold Blank at h
  simp only [List.mem_cons, List.not_mem_nil, or_false] at h
  rcases h with rfl | rfl | rfl | rfl | rfl | rfl <;> decide

theorem ofDigits_foldl : ∀ (w : List Char) (a : Nat),
    Nat.ofDigitChars 10 w a = w.foldl (fun a c => 10 * a + digitOf c) a := by
  intro w
  induction w with
  | nil => intro a; rfl
  | cons c w ih => intro a; simp only [Nat.ofDigitChars_cons, List.foldl_cons]; rw [ih]; rfl

theorem dropWhile_blank {s l : List Char} (hs : ∀ c ∈ s, Blank c) :
    (s ++ l).dropWhile isWs = l.dropWhile isWs := by
  induction s with
  | nil => rfl
  | cons c s ih =>
    rw [List.cons_append, List.dropWhile_cons_of_pos ((isWs_iff c).mpr (hs c (by simp)))]
    exact ih fun d hd => hs d (by simp [hd])

theorem dropWhile_word {w l : List Char} (hw : w ≠ []) (hb : ∀ c ∈ w, ¬ Blank c) :
    (w ++ l).dropWhile isWs = w ++ l := by
  cases w with
  | nil => exact absurd rfl hw
  | cons c w =>
    rw [List.cons_append, List.dropWhile_cons_of_neg]
    rw [isWs_iff]; exact hb c (by simp)

/-- a run of characters with a property ends where the next character does not have it -/
theorem run_end {p : Char → Bool} {w l : List Char} (hw : ∀ c ∈ w, p c = true)
    (hl : ∀ c ∈ l.head?, p c = false) : (w ++ l).takeWhile p = w ∧ (w ++ l).dropWhile p = l := by
  cases l with
  | nil =>
    rw [List.append_nil]
    refine ⟨takeWhile_all hw, ?_⟩
    induction w with
    | nil => rfl
    | cons c w ih =>
      rw [List.dropWhile_cons_of_pos (hw c (by simp))]
      exact ih fun d hd => hw d (by simp [hd])
  | cons c l =>
    have hc : p c = false := hl c (by simp)
    exact ⟨takeWhile_append_stop hw hc, dropWhile_append_stop hw hc⟩

theorem needNat_words {l w : List Char} {ws : List (List Char)} {n : Nat} (h : Words l (w :: ws))
    (hn : Numeral w n) : ∃ s, needNat l = .ok (n, s) ∧ Words s ws := by
  cases h with
  | @word s w l ws h1 h2 h3 h4 h5 =>
    obtain ⟨q1, q2, q3⟩ := hn
    have hd : ∀ c ∈ w, c.isDigit = true := fun c hc => (digit_iff c).mpr (q2 c hc)
    obtain ⟨t1, t2⟩ := run_end (p := Char.isDigit) (l := l) hd fun c hc => blank_not_digit (h4 c hc)
    refine ⟨l, ?_, h5⟩
    unfold needNat readNat
    simp only [dropWhile_blank h1, dropWhile_word h2 h3, t1, t2, if_neg h2, ofDigits_foldl, q3]

theorem word_words {l w : List Char} {ws : List (List Char)} (h : Words l (w :: ws)) :
    ∃ s, word l = (w, s) ∧ Words s ws := by
  cases h with
  | @word s w l ws h1 h2 h3 h4 h5 =>
    obtain ⟨t1, t2⟩ := run_end (p := fun c => !isWs c) (w := w) (l := l)
      (fun c hc => by simp [(isWs_false c).mpr (h3 c hc)])
      (fun c hc => by simp [(isWs_iff c).mpr (h4 c hc)])
    refine ⟨l, ?_, h5⟩
    unfold word
    simp only [dropWhile_blank h1, dropWhile_word h2 h3, t1, t2]

theorem words_ne_nil {l w : List Char} {ws : List (List Char)} (h : Words l (w :: ws)) : w ≠ [] := by
  cases h with
  | word h1 h2 h3 h4 h5 => exact h2

theorem readVal_words [Zero α] {K : Codec α} {l w : List Char} {ws : List (List Char)} {x : α}
    (h : Words l (w :: ws)) (hx : K.parse w = some x) : readVal K l = .ok x := by
  obtain ⟨s, e, -⟩ := word_words h
  unfold readVal
  simp only [e, if_neg (words_ne_nil h), hx, Option.getD_some]

theorem checkBanner_words {l : List Char} (h : StatesBanner l) : checkBanner l = true := by
  obtain ⟨s1, e1, w1⟩ := word_words h.2
  obtain ⟨s2, e2, w2⟩ := word_words w1
  obtain ⟨s3, e3, w3⟩ := word_words w2
  obtain ⟨s4, e4, w4⟩ := word_words w3
  obtain ⟨s5, e5, w5⟩ := word_words w4
  unfold checkBanner
  simp only [e1, e2, e3, e4, e5, beq_self_eq_true, Bool.and_self]

/-- the stream after a line that is followed by `r` -/
def after : List Char → Ifs
  | [] => { rest := [], good := false }
  | _ :: r => { rest := r, good := true }

theorem splitLine_last {l : List Char} (h : OneLine l) : splitLine l = (l, none) := by
  induction l with
  | nil => rfl
  | cons c l ih =>
    unfold splitLine
    rw [if_neg (h c (by simp)), ih fun d hd => h d (by simp [hd])]

theorem getline_after {l r buf : List Char} (h : OneLine l) (hr : ∀ c ∈ r.head?, c = '\n') :
    getline { rest := l ++ r, good := true } buf = (after r, l) := by
  cases r with
  | nil =>
    unfold getline
    simp only [List.append_nil, splitLine_last h, if_true, after]
  | cons c r =>
    have := hr c (by simp)
    subst this
    exact getline_line h

theorem readEntry_states [Zero α] {K : Codec α} {i : Nat} {e : Entry α} {f f' : Ifs} {buf l : List Char}
    {A : Coo α} (hg : getline f buf = (f', l)) (he : StatesEntry K.parse l e)
    (h1 : i < A.rowIdx.length) (h2 : i < A.colIdx.length) (h3 : i < A.val.length) :
    readEntry K i (f, buf, A) = .ok (f', l,
        { A with rowIdx := A.rowIdx.set i e.1, colIdx := A.colIdx.set i e.2.1,
                 val := A.val.set i e.2.2 }) := by
  obtain ⟨-, r, c, v, hw, hr, hc, hv⟩ := he
  obtain ⟨s1, e1, w1⟩ := needNat_words hw hr
  obtain ⟨s2, e2, w2⟩ := needNat_words w1 hc
  have e3 := readVal_words (K := K) w2 hv
  unfold readEntry
  simp only [hg, e1, e2, e3, Res.ok_bind, wr_ok h1, wr_ok h2, wr_ok h3, pred64_succ]

/-- the loop over the entries, for any sequence of lines the stream delivers -/
theorem loop_lines [Zero α] {K : Codec α} {n : Nat} (E : List (Entry α)) (hE : E.length = n)
    (F : Nat → Ifs) (B : Nat → List Char) (hg : ∀ i, i < n → getline (F i) (B i) = (F (i + 1), B (i + 1)))
    (hs : ∀ i, (h : i < E.length) → StatesEntry K.parse (B (i + 1)) E[i]) {A : Coo α} (hA : A.WF)
    (hn : A.nnz = n) : ∃ A', forN n (readEntry K) (F 0, B 0, A) = .ok (F n, B n, A') ∧ A'.WF ∧
      A'.rowN = A.rowN ∧ A'.colN = A.colN ∧ A'.entries = E := by
  have hl := hA.nnz_le
  have hR := hA.lenR
  have hC := hA.lenC
  have hV := hA.lenV
  have hloop := forN_sat (n := n) (s := (F 0, B 0, A)) (body := readEntry K)
    (fun i (st : Ifs × List Char × Coo α) =>
      st.1 = F i ∧ st.2.1 = B i ∧ st.2.2.rowN = A.rowN ∧ st.2.2.colN = A.colN ∧ st.2.2.nnz = A.nnz ∧
      st.2.2.alloc = A.alloc ∧
      st.2.2.created = true ∧ st.2.2.rowIdx.length = A.rowIdx.length ∧
      st.2.2.colIdx.length = A.colIdx.length ∧
      st.2.2.val.length = A.val.length ∧ st.2.2.zip3.take i = E.take i)
    ⟨rfl, rfl, rfl, rfl, rfl, rfl, hA.created, rfl, rfl, rfl, by simp⟩ (by
      rintro i ⟨f, buf, C⟩ hi ⟨hf, hb, q1, q2, q3, q4, q5, q6, q7, q8, q9⟩
      simp only at hf hb q1 q2 q3 q4 q5 q6 q7 q8 q9
      subst hf; subst hb
      have hi' : i < E.length := by omega
      refine ⟨_, readEntry_states (hg i hi) (hs i hi') (by omega) (by omega) (by omega), rfl, rfl, q1, q2, q3, q4,
        q5, by simpa using q6, by simpa using q7, by simpa using q8, ?_⟩
      have : E.take (i + 1) = E.take i ++ [E[i]] := List.take_succ_eq_append_getElem hi'
      rw [this]
      unfold Coo.zip3 at q9 ⊢
      rw [set_take_zip (by omega) (by omega) (by omega), q9])
  obtain ⟨⟨f, buf, C⟩, hC', hf, hb, q1, q2, q3, q4, q5, q6, q7, q8, q9⟩ := hloop
  simp only at hf hb q1 q2 q3 q4 q5 q6 q7 q8 q9
  subst hf; subst hb
  refine ⟨C, hC', ⟨q5, by omega, by omega, by omega, by omega⟩, q1, q2, ?_⟩
  rw [Coo.entries_eq, q3, hn, q9, ← hE, List.take_length]

theorem size_head {l : List Char} {M N n : Nat} (h : StatesSize l M N n) : l.head? ≠ some '%' := by
  obtain ⟨-, a, b, c, hw, ha, -⟩ := h
  cases hw with
  | @word s w l ws h1 h2 h3 h4 h5 =>
    intro hh
    cases s with
    | cons d s =>
      simp only [List.cons_append, List.head?_cons, Option.some.injEq] at hh
      have := h1 d (by simp)
      rw [hh] at this
      revert this; unfold Blank; decide
    | nil =>
      cases a with
      | nil => exact h2 rfl
      | cons d w =>
        simp only [List.nil_append, List.cons_append, List.head?_cons, Option.some.injEq] at hh
        have := (digit_iff d).mpr (ha.2.1 d (by simp))
        rw [hh] at this
        revert this; decide

theorem remarks_length (cs : List (List Char)) : cs.length ≤ (cs.flatMap (fun c => c ++ ['\n'])).length := by
  induction cs with
  | nil => simp
  | cons c cs ih => rw [List.flatMap_cons]; simp only [List.length_cons, List.length_append] at *; omega

/-- everything before the loop over the entries -/
theorem input_header [Zero α] {K : Codec α} {B : Coo α} (hB : B.nnz ≤ B.val.length)
    {banner size R : List Char} {remarks : List (List Char)} {M N n : Nat} (hb : StatesBanner banner)
    (hr : ∀ l ∈ remarks, Remark l) (hs : StatesSize size M N n) (hN : 0 < N)
    (hR : ∀ c ∈ R.head?, c = '\n') :
    ∃ A : Coo α, A.WF ∧ A.nnz = n ∧ A.rowN = M ∧ A.colN = N ∧
      input K B (banner ++ '\n' :: (remarks.flatMap (fun l => l ++ ['\n']) ++ (size ++ R))) =
        (forN n (readEntry K) (after R, size, A)).bind fun st => .ok st.2.2 := by
  obtain ⟨a, b, c, hw, ha, hb', hc⟩ := hs.2
  obtain ⟨s1, e1, w1⟩ := needNat_words hw ha
  obtain ⟨s2, e2, w2⟩ := needNat_words w1 hb'
  obtain ⟨s3, e3, w3⟩ := needNat_words w2 hc
  have hskip := skipComments_lines remarks
    ((banner ++ '\n' :: (remarks.flatMap (fun l => l ++ ['\n']) ++ (size ++ R))).length + 1) []
    (fun l hl => ⟨(hr l hl).2, (hr l hl).1⟩)
    (by have := remarks_length remarks; simp only [List.length_append, List.length_cons]; omega)
    (getline_after (buf := []) hs.1 hR) (size_head hs)
  have hmin : min B.nnz n ≤ B.val.length := by omega
  refine ⟨⟨M, N, stdResize (stdResize B.rowIdx n 0) n 0, stdResize (stdResize B.colIdx n 0) n 0,
      B.val.take (min B.nnz n) ++ List.replicate (n - min B.nnz n) 0, n, n, true⟩,
      ⟨rfl, by simp, by simp, ?_, le_refl _⟩, rfl, rfl, rfl, ?_⟩
  · simp only [List.length_append, List.length_take, List.length_replicate]
    omega
  unfold input
  simp only [getline_line hb.1, checkBanner_words hb, if_true, hskip, Res.ok_bind, e1, e2, e3]
  rw [if_neg (by omega)]
  simp only [Coo.resize, if_true, reallocCopy_ok hmin, Res.ok_bind]
  rfl

/-- what remains of the file after `i` of the entry lines -/
def remain (lines : List (List Char)) (rest : List Char) (i : Nat) : List Char :=
  (lines.drop i).flatMap (fun l => '\n' :: l) ++ rest

theorem remain_head {lines : List (List Char)} {rest : List Char} (h : ∀ c ∈ rest.head?, c = '\n') (i : Nat) :
    ∀ c ∈ (remain lines rest i).head?, c = '\n' := by
  unfold remain
  cases lines.drop i with
  | nil => exact h
  | cons l ls => intro c hc; simpa [eq_comm] using hc

theorem remain_getline {lines : List (List Char)} {rest buf : List Char} (h : ∀ c ∈ rest.head?, c = '\n')
    {i : Nat} (hi : i < lines.length) (hl : OneLine lines[i]) :
    getline (after (remain lines rest i)) buf = (after (remain lines rest (i + 1)), lines[i]) := by
  have e : remain lines rest i = '\n' :: (lines[i] ++ remain lines rest (i + 1)) := by
    unfold remain
    rw [List.drop_eq_getElem_cons hi, List.flatMap_cons]
    simp
  rw [e]
  exact getline_after hl (remain_head h (i + 1))

/-- **C112.** Every Matrix Market file of type coordinate real general — any comment lines, any blanks,
tabs and carriage returns around and between the words of a line, numerals with leading zeros, with or
without a line break at the end, anything after the announced entries — is read as the matrix it
describes: its dimensions and its entries in the order of the file, whatever the object held before. -/
theorem C112_any_layout_partial [Zero α] (K : Codec α) (B : Coo α) (hB : B.nnz ≤ B.val.length)
    (text : List Char) (M N : Nat) (hN : 0 < N) (L : List (Entry α)) (rest : List Char)
    (h : MmFile K.parse text M N L.length L rest) :
    ∃ A, input K B text = .ok A ∧ A.WF ∧ A.rowN = M ∧ A.colN = N ∧ A.entries = L := by
  obtain ⟨⟨banner, remarks, size, lines, ht, hb, hr, hs, hlen, hl⟩, hrest⟩ := h
  obtain ⟨A, hA, hn, hM, hN', hin⟩ := input_header (K := K) hB hb hr hs hN
    (R := remain lines rest 0) (remain_head hrest 0)
  let B' : Nat → List Char := fun i => if h : 0 < i ∧ i - 1 < lines.length then lines[i - 1]'h.2 else size
  obtain ⟨A', hA', hwf, r1, r2, r3⟩ := loop_lines (K := K) (n := L.length) L rfl
    (fun i => after (remain lines rest i)) B' (by
      intro i hi
      have hi' : i < lines.length := by omega
      have eB : B' (i + 1) = lines[i] := by simp [B', hi']
      rw [eB]
      exact remain_getline hrest hi' (hl i hi' hi).1) (by
      intro i hi
      have hi' : i < lines.length := by omega
      have eB : B' (i + 1) = lines[i] := by simp [B', hi']
      rw [eB]
      exact hl i hi' hi) hA hn
  refine ⟨A', ?_, hwf, by omega, by omega, r3⟩
  rw [ht]
  have e0 : lines.flatMap (fun l => '\n' :: l) ++ rest = remain lines rest 0 := by simp [remain]
  rw [e0, hin]
  have : B' 0 = size := by simp [B']
  rw [this] at hA'
  rw [hA']
  rfl

/-- **C112 (too few lines).** A file that announces more entries than it lists and does not end in a line
break is accepted all the same: its last entry is repeated. -/
theorem C112_short_repeated [Zero α] (K : Codec α) (B : Coo α) (hB : B.nnz ≤ B.val.length)
    (text : List Char) (M N n : Nat) (hN : 0 < N) (L : List (Entry α)) (e : Entry α)
    (h : MmFile K.parse text M N n (L ++ [e]) []) (hn : (L ++ [e]).length ≤ n) :
    ∃ A, input K B text = .ok A ∧ A.WF ∧ A.rowN = M ∧ A.colN = N ∧
      A.entries = L ++ List.replicate (n - L.length) e := by
  obtain ⟨⟨banner, remarks, size, lines, ht, hb, hr, hs, hlen, hl⟩, hrest⟩ := h
  simp only [List.length_append, List.length_cons, List.length_nil, Nat.zero_add] at hn hlen
  obtain ⟨A, hA, hnz, hM, hN', hin⟩ := input_header (K := K) hB hb hr hs hN
    (R := remain lines [] 0) (remain_head hrest 0)
  let B' : Nat → List Char := fun i => if i = 0 then size else lines[min (i - 1) L.length]'(by omega)
  have hlast : remain lines [] lines.length = [] := by simp [remain]
  obtain ⟨A', hA', hwf, r1, r2, r3⟩ := loop_lines (K := K) (n := n) (L ++ List.replicate (n - L.length) e)
    (by simp; omega)
    (fun i => after (remain lines [] (min i lines.length))) B' (by
      intro i hi
      rcases Nat.lt_or_ge i lines.length with hi' | hi'
      · have eB : B' (i + 1) = lines[i] := by
          have : min i L.length = i := by omega
          simp [B', this]
        have m1 : min i lines.length = i := by omega
        have m2 : min (i + 1) lines.length = i + 1 := by omega
        rw [eB]; simp only [m1, m2]
        exact remain_getline hrest hi' (hl i hi' (by simp; omega)).1
      · have m1 : min i lines.length = lines.length := by omega
        have m2 : min (i + 1) lines.length = lines.length := by omega
        have eB : B' (i + 1) = B' i := by
          have h1 : min i L.length = L.length := by omega
          have h2 : min (i - 1) L.length = L.length := by omega
          have h3 : i ≠ 0 := by omega
          simp [B', h1, h2, h3]
        simp only [m1, m2, hlast, eB]
        rfl) (by
      intro i hi
      have hm : min i L.length < lines.length := by omega
      have eB : B' (i + 1) = lines[min i L.length] := by simp [B']
      rw [eB]
      have := hl (min i L.length) hm (by rw [List.length_append]; simp only [List.length_cons, List.length_nil]; omega)
      convert this using 1
      rcases Nat.lt_or_ge i L.length with h | h
      · have : min i L.length = i := by omega
        simp only [this]
        rw [List.getElem_append_left h, List.getElem_append_left h]
      · have : min i L.length = L.length := by omega
        simp only [this]
        rw [List.getElem_append_right h, List.getElem_append_right (le_refl _)]
        simp) hA hnz
  refine ⟨A', ?_, hwf, by omega, by omega, r3⟩
  rw [ht]
  have e0 : lines.flatMap (fun l => '\n' :: l) ++ [] = remain lines [] 0 := by simp [remain]
  rw [e0, hin]
  have b0 : B' 0 = size := by simp [B']
  have m0 : min 0 lines.length = 0 := by omega
  simp only [b0, m0] at hA'
  rw [hA']
  rfl

theorem forFrom_prefix_ub {σ : Type} {body : Nat → σ → Res σ} {e : String} : ∀ (k lo n : Nat) (s s' : σ),
    k < n → forFrom lo k body s = .ok s' → body (lo + k) s' = .ub e → forFrom lo n body s = .ub e := by
  intro k
  induction k with
  | zero =>
    intro lo n s s' hk h1 h2
    cases h1
    obtain ⟨m, rfl⟩ : ∃ m, n = m + 1 := ⟨n - 1, by omega⟩
    rw [forFrom_succ, show lo = lo + 0 from rfl, h2]; rfl
  | succ k ih =>
    intro lo n s s' hk h1 h2
    obtain ⟨m, rfl⟩ : ∃ m, n = m + 1 := ⟨n - 1, by omega⟩
    rw [forFrom_succ] at h1 ⊢
    obtain ⟨t, e1, e2⟩ := Res.bind_eq_ok.mp h1
    rw [e1]
    exact ih (lo + 1) m t s' (by omega) e2 (by rw [← h2]; congr 1; omega)

/-- **C112 (too few lines).** If such a file does end in a line break, `input_mm` uses variables that were
never given a value. -/
theorem C112_short_uninitialised [Zero α] (K : Codec α) (B : Coo α) (hB : B.nnz ≤ B.val.length)
    (text : List Char) (M N n : Nat) (hN : 0 < N) (L : List (Entry α))
    (h : MmFile K.parse text M N n L ['\n']) (hn : L.length < n) :
    ∃ e, input K B text = .ub e := by
  obtain ⟨⟨banner, remarks, size, lines, ht, hb, hr, hs, hlen, hl⟩, hrest⟩ := h
  obtain ⟨A, hA, hnz, hM, hN', hin⟩ := input_header (K := K) hB hb hr hs hN
    (R := remain lines ['\n'] 0) (remain_head hrest 0)
  let B' : Nat → List Char := fun i => if h : 0 < i ∧ i - 1 < lines.length then lines[i - 1]'h.2 else size
  have b0 : B' 0 = size := by simp [B']
  have hloop := forN_sat (n := L.length) (s := (after (remain lines ['\n'] 0), size, A)) (body := readEntry K)
    (fun i (st : Ifs × List Char × Coo α) =>
      st.1 = after (remain lines ['\n'] i) ∧ st.2.2.rowIdx.length = A.rowIdx.length ∧
      st.2.2.colIdx.length = A.colIdx.length ∧ st.2.2.val.length = A.val.length)
    ⟨rfl, rfl, rfl, rfl⟩ (by
      rintro i ⟨f, buf, C⟩ hi ⟨hf, q6, q7, q8⟩
      simp only at hf q6 q7 q8
      subst hf
      have hi' : i < lines.length := by omega
      have hR := hA.lenR
      have hC := hA.lenC
      have hV := hA.lenV
      have hl' := hA.nnz_le
      exact ⟨_, readEntry_states (remain_getline hrest hi' (hl i hi' hi).1) (hl i hi' hi) (by omega) (by omega)
        (by omega), rfl, by simpa using q6, by simpa using q7, by simpa using q8⟩)
  obtain ⟨⟨f, buf, C⟩, hC, hf, -⟩ := hloop
  simp only at hf
  have hend : remain lines ['\n'] L.length = ['\n'] := by rw [← hlen]; simp [remain]
  rw [hend] at hf
  subst hf
  refine ⟨"use of an uninitialised number", ?_⟩
  rw [ht]
  have e0 : lines.flatMap (fun l => '\n' :: l) ++ ['\n'] = remain lines ['\n'] 0 := by simp [remain]
  rw [e0, hin]
  have : forN n (readEntry K) (after (remain lines ['\n'] 0), size, A) = .ub "use of an uninitialised number" :=
    forFrom_prefix_ub L.length 0 n _ _ hn hC (by rw [Nat.zero_add]; rfl)
  rw [this]
  rfl

/-- **C112 (end to end).** The example program solves what the file says whatever its layout. -/
theorem C112_example {K : Type} [Field K] [LinearOrder K] [IsStrictOrderedRing K] (sq : K → K) (hsq : sq 0 = 0)
    (tol omega resid0 : K) (htol : 0 < tol) (C : Codec K) (order zo : Nat → List Nat)
    (ho : ∀ n, Order (order n) n) (hz : ∀ n, Order (zo n) n) (r c n : Nat) (text rest : List Char)
    (L : List (Entry K)) (hfile : MmFile C.parse text n n L.length L rest) (hin : Within n n L)
    (hd : DistinctPos L) (hs : SortedRows L) (hM : SPD (matrixOf n L)) (x b : Nat → K)
    (hx : Matrix.mulVec (matrixOf n L) (firstN n x) ≠ firstN n b) :
    ∃ k, ∃ y : Fin n → K, 1 ≤ k ∧ k ≤ n ∧
      norm2 sq (firstN n b - Matrix.mulVec (matrixOf n L) y) < tol ∧
      Prog.cgExample (fieldNum sq) C r c tol omega resid0 order zo text x b =
        .ok { status := Solver.SUCCESS
              x := List.ofFn y
              finalIter := k
              finalResid := norm2 sq (firstN n b - Matrix.mulVec (matrixOf n L) y) } := by
  have hn : 0 < n := by
    rcases Nat.eq_zero_or_pos n with h | h
    · subst h; exact absurd (funext fun i => Fin.elim0 i) hx
    · exact h
  obtain ⟨A, hA, hwf, hr, hc, he⟩ := C112_any_layout_partial C (Prog.blank r c) (Nat.zero_le _) text n n hn L rest hfile
  subst he
  obtain ⟨k, y, h1, h2, h3, h4⟩ := Prog.convert_solve sq hsq tol omega resid0 htol order zo ho hz n A hwf hr hc hin
    hd hs hM x b hx
  refine ⟨k, y, h1, h2, h3, ?_⟩
  unfold Prog.cgExample
  rw [hA]
  exact h4

/-! ### What is not checked -/

/-- a file with a two by two matrix and the given lines after the sizes -/
def twoByTwo (n body : String) : List Char :=
  ("%%MatrixMarket matrix coordinate real general\n2 2 " ++ n ++ "\n" ++ body).toList

/-- **C112 (row out of range).** An entry in row 5 of a matrix with 2 rows is accepted; converting the matrix
to CRS then writes outside its arrays. -/
theorem C112_row_out_of_range_violated :
    ∃ A, input intCodec (Coo.new 0 0) (twoByTwo "1" "5 1 7\n") = .ok A ∧ A.rowN = 2 ∧
      A.entries = [(4, 0, 7)] ∧ ∃ e, Crs.ofCoo A = .ub e := by
  refine ⟨⟨2, 2, [4], [0], [7], 1, 1, true⟩, by decide +kernel, rfl, by decide, ?_⟩
  exact ⟨"write out of bounds", by decide +kernel⟩

/-- **C112 (index zero).** An entry with row number 0 is accepted: its row is `0 - 1` in `size_t` (-1 once
stored in an `int`). -/
theorem C112_row_zero_violated :
    ∃ A, input intCodec (Coo.new 0 0) (twoByTwo "1" "0 1 7\n") = .ok A ∧ A.rowN = 2 ∧
      A.entries = [(18446744073709551615, 0, 7)] :=
  ⟨⟨2, 2, [18446744073709551615], [0], [7], 1, 1, true⟩, by decide +kernel, rfl, by decide⟩

/-- **C112 (blank line).** The format allows blank lines; one of them between the entries makes `input_mm` use
variables that were never given a value. -/
theorem C112_blank_line_violated :
    ∃ e, input intCodec (Coo.new 0 0) (twoByTwo "2" "1 1 7\n\n2 2 3\n") = .ub e :=
  ⟨"use of an uninitialised number", by decide +kernel⟩

/-- **C112 (letter case).** The words of the first line are to be read in any letter case; `input_mm` ends the
program unless they are written in lower case. -/
theorem C112_letter_case_violated :
    ∃ e, input intCodec (Coo.new 0 0)
      "%%MatrixMarket Matrix Coordinate Real General\n1 1 1\n1 1 7\n".toList = .abort e :=
  ⟨"exit(-1)", by decide +kernel⟩

/-- **C112 (comment after the sizes).** A comment line among the entries is not skipped. -/
theorem C112_late_comment_violated :
    ∃ e, input intCodec (Coo.new 0 0) (twoByTwo "1" "% diagonal\n1 1 7\n") = .ub e :=
  ⟨"use of an uninitialised number", by decide +kernel⟩

/-! ### Instances -/

/-- blanks and word, blanks and word, …, blanks -/
def partsOk : List (List Char × List Char) → List Char → Bool
  | [], tl => tl.all isWs
  | p :: ps, tl => p.1.all isWs && !p.2.isEmpty && p.2.all (fun c => !isWs c) &&
    ((ps.foldr (fun p l => p.1 ++ (p.2 ++ l)) tl).head?.all isWs) && partsOk ps tl

theorem words_of : ∀ (ps : List (List Char × List Char)) (tl : List Char), partsOk ps tl = true →
    Words (ps.foldr (fun p l => p.1 ++ (p.2 ++ l)) tl) (ps.map (·.2)) := by
  intro ps
  induction ps with
  | nil =>
    intro tl h
    exact .none fun c hc => (isWs_iff c).mp (List.all_eq_true.mp h c hc)
  | cons p ps ih =>
    intro tl h
    simp only [partsOk, Bool.and_eq_true, List.all_eq_true, Bool.not_eq_true', List.isEmpty_eq_false_iff,
      Option.all_eq_true] at h
    obtain ⟨⟨⟨⟨h1, h2⟩, h3⟩, h4⟩, h5⟩ := h
    exact .word (fun c hc => (isWs_iff c).mp (h1 c hc)) h2 (fun c hc => (isWs_false c).mp (h3 c hc))
      (fun c hc => (isWs_iff c).mp (h4 c hc)) (ih tl h5)

/-- a file with comments, tabs, carriage returns, leading zeros and no line break at its end -/
def messy : List Char :=
  "%%MatrixMarket  matrix\tcoordinate real general\r\n%\n% made by hand\n  2\t2  02\r\n1 2 7\r\n\t02 1 -3".toList

theorem messy_file : MmFile intCodec.parse messy 2 2 2 [(0, 1, 7), (1, 0, -3)] [] where
  layout := by
    refine ⟨"%%MatrixMarket  matrix\tcoordinate real general\r".toList, ["%".toList, "% made by hand".toList],
      "  2\t2  02\r".toList, ["1 2 7\r".toList, "\t02 1 -3".toList], by decide +kernel, ⟨by unfold OneLine; decide +kernel, ?_⟩,
      by unfold Remark OneLine; decide +kernel, ⟨by unfold OneLine; decide +kernel, "2".toList, "2".toList, "02".toList, ?_, by unfold Numeral; decide +kernel,
      by unfold Numeral; decide +kernel, by unfold Numeral; decide +kernel⟩, rfl, ?_⟩
    · exact words_of [("".toList, "%%MatrixMarket".toList), ("  ".toList, "matrix".toList), ("\t".toList, "coordinate".toList), (" ".toList, "real".toList), (" ".toList, "general".toList)] "\r".toList (by decide +kernel)
    · exact words_of [("  ".toList, "2".toList), ("\t".toList, "2".toList), ("  ".toList, "02".toList)] "\r".toList (by decide +kernel)
    · intro i h h'
      match i, h, h' with
      | 0, _, _ =>
        exact ⟨by unfold OneLine; decide +kernel +revert, "1".toList, "2".toList, "7".toList,
          words_of [("".toList, "1".toList), (" ".toList, "2".toList), (" ".toList, "7".toList)] "\r".toList (by decide +kernel),
          by unfold Numeral; decide +kernel +revert, by unfold Numeral; decide +kernel +revert,
          by decide +kernel +revert⟩
      | 1, _, _ =>
        exact ⟨by unfold OneLine; decide +kernel +revert, "02".toList, "1".toList, "-3".toList,
          words_of [("\t".toList, "02".toList), (" ".toList, "1".toList), (" ".toList, "-3".toList)] "".toList (by decide +kernel),
          by unfold Numeral; decide +kernel +revert, by unfold Numeral; decide +kernel +revert,
          by decide +kernel +revert⟩
  after := by simp

/-- the file above is read as what it says -/
example : ∃ A, input intCodec (Coo.new 7 7) messy = .ok A ∧ A.WF ∧ A.rowN = 2 ∧ A.colN = 2 ∧
    A.entries = [(0, 1, 7), (1, 0, -3)] :=
  C112_any_layout_partial intCodec _ (Nat.zero_le _) messy 2 2 (by decide) _ [] messy_file

/-- a file that announces three entries and lists one, with and without a line break at its end -/
theorem short_file : MmFile intCodec.parse (twoByTwo "3" "1  2\t5") 2 2 3 [(0, 1, 5)] [] where
  layout := by
    refine ⟨"%%MatrixMarket matrix coordinate real general".toList, [], "2 2 3".toList, ["1  2\t5".toList],
      by decide +kernel, ⟨by unfold OneLine; decide +kernel, words_of [("".toList, "%%MatrixMarket".toList), (" ".toList, "matrix".toList), (" ".toList, "coordinate".toList), (" ".toList, "real".toList), (" ".toList, "general".toList)] "".toList (by decide +kernel)⟩,
      by simp, ⟨by unfold OneLine; decide +kernel, "2".toList, "2".toList, "3".toList, words_of [("".toList, "2".toList), (" ".toList, "2".toList), (" ".toList, "3".toList)] "".toList (by decide +kernel),
      by unfold Numeral; decide +kernel, by unfold Numeral; decide +kernel, by unfold Numeral; decide +kernel⟩, rfl, ?_⟩
    · intro i h h'
      match i, h, h' with
      | 0, _, _ =>
        exact ⟨by unfold OneLine; decide +kernel +revert, "1".toList, "2".toList, "5".toList,
          words_of [("".toList, "1".toList), ("  ".toList, "2".toList), ("\t".toList, "5".toList)] "".toList (by decide +kernel),
          by unfold Numeral; decide +kernel +revert, by unfold Numeral; decide +kernel +revert,
          by decide +kernel +revert⟩
  after := by simp

theorem short_file_nl : MmFile intCodec.parse (twoByTwo "3" "1  2\t5\n") 2 2 3 [(0, 1, 5)] ['\n'] where
  layout := by
    refine ⟨"%%MatrixMarket matrix coordinate real general".toList, [], "2 2 3".toList, ["1  2\t5".toList],
      by decide +kernel, ⟨by unfold OneLine; decide +kernel, words_of [("".toList, "%%MatrixMarket".toList), (" ".toList, "matrix".toList), (" ".toList, "coordinate".toList), (" ".toList, "real".toList), (" ".toList, "general".toList)] "".toList (by decide +kernel)⟩,
      by simp, ⟨by unfold OneLine; decide +kernel, "2".toList, "2".toList, "3".toList, words_of [("".toList, "2".toList), (" ".toList, "2".toList), (" ".toList, "3".toList)] "".toList (by decide +kernel),
      by unfold Numeral; decide +kernel, by unfold Numeral; decide +kernel, by unfold Numeral; decide +kernel⟩, rfl, ?_⟩
    · intro i h h'
      match i, h, h' with
      | 0, _, _ =>
        exact ⟨by unfold OneLine; decide +kernel +revert, "1".toList, "2".toList, "5".toList,
          words_of [("".toList, "1".toList), ("  ".toList, "2".toList), ("\t".toList, "5".toList)] "".toList (by decide +kernel),
          by unfold Numeral; decide +kernel +revert, by unfold Numeral; decide +kernel +revert,
          by decide +kernel +revert⟩
  after := by simp

example : ∃ A, input intCodec (Coo.new 7 7) (twoByTwo "3" "1  2\t5") = .ok A ∧ A.WF ∧ A.rowN = 2 ∧ A.colN = 2 ∧
    A.entries = [] ++ List.replicate (3 - 0) (0, 1, 5) :=
  C112_short_repeated intCodec _ (Nat.zero_le _) _ 2 2 3 (by decide) [] (0, 1, 5) short_file (by decide)

example : ∃ e, input intCodec (Coo.new 7 7) (twoByTwo "3" "1  2\t5\n") = .ub e :=
  C112_short_uninitialised intCodec _ (Nat.zero_le _) _ 2 2 3 (by decide) _ short_file_nl (by decide)

/-- the matrix `[[2, 1], [1, 2]]` -/
theorem spd_file : MmFile Prog.ratCodec.parse (twoByTwo "4" "1  1\t2\n1  2\t1\n2  1\t1\n2  2\t2") 2 2 4
    Prog.rowOrder [] where
  layout := by
    refine ⟨"%%MatrixMarket matrix coordinate real general".toList, [], "2 2 4".toList, ["1  1\t2".toList, "1  2\t1".toList, "2  1\t1".toList, "2  2\t2".toList],
      by decide +kernel, ⟨by unfold OneLine; decide +kernel, words_of [("".toList, "%%MatrixMarket".toList), (" ".toList, "matrix".toList), (" ".toList, "coordinate".toList), (" ".toList, "real".toList), (" ".toList, "general".toList)] "".toList (by decide +kernel)⟩,
      by simp, ⟨by unfold OneLine; decide +kernel, "2".toList, "2".toList, "4".toList, words_of [("".toList, "2".toList), (" ".toList, "2".toList), (" ".toList, "4".toList)] "".toList (by decide +kernel),
      by unfold Numeral; decide +kernel, by unfold Numeral; decide +kernel, by unfold Numeral; decide +kernel⟩, rfl, ?_⟩
    · intro i h h'
      match i, h, h' with
      | 0, _, _ =>
        exact ⟨by unfold OneLine; decide +kernel +revert, "1".toList, "1".toList, "2".toList,
          words_of [("".toList, "1".toList), ("  ".toList, "1".toList), ("\t".toList, "2".toList)] "".toList (by decide +kernel),
          by unfold Numeral; decide +kernel +revert, by unfold Numeral; decide +kernel +revert,
          by decide +kernel +revert⟩
      | 1, _, _ =>
        exact ⟨by unfold OneLine; decide +kernel +revert, "1".toList, "2".toList, "1".toList,
          words_of [("".toList, "1".toList), ("  ".toList, "2".toList), ("\t".toList, "1".toList)] "".toList (by decide +kernel),
          by unfold Numeral; decide +kernel +revert, by unfold Numeral; decide +kernel +revert,
          by decide +kernel +revert⟩
      | 2, _, _ =>
        exact ⟨by unfold OneLine; decide +kernel +revert, "2".toList, "1".toList, "1".toList,
          words_of [("".toList, "2".toList), ("  ".toList, "1".toList), ("\t".toList, "1".toList)] "".toList (by decide +kernel),
          by unfold Numeral; decide +kernel +revert, by unfold Numeral; decide +kernel +revert,
          by decide +kernel +revert⟩
      | 3, _, _ =>
        exact ⟨by unfold OneLine; decide +kernel +revert, "2".toList, "2".toList, "2".toList,
          words_of [("".toList, "2".toList), ("  ".toList, "2".toList), ("\t".toList, "2".toList)] "".toList (by decide +kernel),
          by unfold Numeral; decide +kernel +revert, by unfold Numeral; decide +kernel +revert,
          by decide +kernel +revert⟩
  after := by simp

open Matrix in
/-- the hypotheses of `C112_example` hold together -/
example : ∃ k, ∃ y : Fin 2 → ℚ, 1 ≤ k ∧ k ≤ 2 ∧
    norm2 id (firstN 2 (fun i => if i = 0 then 3 else 0) - matrixOf 2 Prog.rowOrder *ᵥ y) < 1 / 100 ∧
    Prog.cgExample (fieldNum id) Prog.ratCodec 0 0 (1 / 100) 1 0 List.range List.range
        (twoByTwo "4" "1  1\t2\n1  2\t1\n2  1\t1\n2  2\t2") (fun _ => 0) (fun i => if i = 0 then 3 else 0) =
      .ok { status := Solver.SUCCESS
            x := List.ofFn y
            finalIter := k
            finalResid := norm2 id (firstN 2 (fun i => if i = 0 then 3 else 0) - matrixOf 2 Prog.rowOrder *ᵥ y) } :=
  C112_example id rfl _ _ _ (by norm_num) Prog.ratCodec _ _ (fun n => Order.range n)
    (fun n => Order.range n) 0 0 2 _ [] Prog.rowOrder spd_file
    (by unfold Within; decide +kernel) (by unfold DistinctPos; decide +kernel)
    (by unfold SortedRows; decide +kernel) (by rw [Prog.rowOrder_matrix]; exact Prog.two_one_spd) _ _
    (by rw [Prog.rowOrder_matrix]; decide +kernel)

end Verif.Mm
