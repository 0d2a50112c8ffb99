import Verif.Model.Mm
import Verif.Spec.CooSpec
import Verif.Lemmas.CooBasic

/-!
C28: MatrixMarket output can be read back.
-/

namespace Verif
namespace Mm

variable {α : Type}

/-- Element text is usable in a line: not empty, no blanks. -/
def Codec.Ok (K : Codec α) : Prop := ∀ x, K.fmt x ≠ [] ∧ ∀ c ∈ K.fmt x, isWs c = false

/-- the text of a list of entries -/
def linesOf (K : Codec α) (L : List (Entry α)) : List Char :=
  L.flatMap fun e => entryLine K e.1 e.2.1 e.2.2

theorem isDigit_not_ws {c : Char} (h : c.isDigit = true) : isWs c = false := by
  cases hw : isWs c with
  | false => rfl
  | true =>
    exfalso
    simp only [isWs, Bool.or_eq_true, beq_iff_eq] at hw
    rcases hw with ((((h1 | h1) | h1) | h1) | h1) | h1 <;> subst h1 <;> revert h <;> decide

theorem showNat_digit {n : Nat} {c : Char} (h : c ∈ showNat n) : c.isDigit = true :=
  Nat.isDigit_of_mem_toDigits (by decide) (by decide) h

theorem showNat_ne_nil (n : Nat) : showNat n ≠ [] := Nat.toDigits_ne_nil

theorem takeWhile_append_stop {p : Char → Bool} {l : List Char} {c : Char} {s : List Char}
    (h1 : ∀ x ∈ l, p x = true) (h2 : p c = false) : (l ++ c :: s).takeWhile p = l := by
  induction l with
  | nil => simp [h2]
  | cons a l ih => simp [h1 a (by simp), ih (fun x hx => h1 x (by simp [hx]))]

theorem dropWhile_append_stop {p : Char → Bool} {l : List Char} {c : Char} {s : List Char}
    (h1 : ∀ x ∈ l, p x = true) (h2 : p c = false) : (l ++ c :: s).dropWhile p = c :: s := by
  induction l with
  | nil => simp [h2]
  | cons a l ih => simp [h1 a (by simp), ih (fun x hx => h1 x (by simp [hx]))]

theorem takeWhile_all {p : Char → Bool} {l : List Char} (h1 : ∀ x ∈ l, p x = true) :
    l.takeWhile p = l := by
  induction l with
  | nil => rfl
  | cons a l ih => simp [h1 a (by simp), ih (fun x hx => h1 x (by simp [hx]))]

theorem dropWhile_head {p : Char → Bool} {l : List Char} (h : ∀ c ∈ l, p c = false) :
    ∀ s, l ≠ [] → (l ++ s).dropWhile p = l ++ s := by
  intro s hne
  cases l with
  | nil => exact absurd rfl hne
  | cons a l => simp [h a (by simp)]

theorem readNat_show {n : Nat} {c : Char} {s : List Char} (hc : c.isDigit = false) :
    readNat (showNat n ++ c :: s) = some (n, c :: s) := by
  unfold readNat
  have h1 : (showNat n ++ c :: s).dropWhile isWs = showNat n ++ c :: s :=
    dropWhile_head (fun c h => isDigit_not_ws (showNat_digit h)) _ (showNat_ne_nil n)
  simp only [h1, takeWhile_append_stop (fun x hx => showNat_digit hx) hc,
    dropWhile_append_stop (fun x hx => showNat_digit hx) hc, showNat_ne_nil, if_false]
  rw [show Nat.ofDigitChars 10 (showNat n) 0 = n from Nat.ofDigitChars_ten_toDigits]

theorem readNat_blank {s : List Char} : readNat (' ' :: s) = readNat s := by
  unfold readNat
  simp [isWs]

theorem readNat_show_end {n : Nat} : ∃ r, readNat (showNat n) = some (n, r) := by
  unfold readNat
  have h1 : (showNat n).dropWhile isWs = showNat n := by
    have := dropWhile_head (p := isWs) (fun c h => isDigit_not_ws (showNat_digit h)) []
      (showNat_ne_nil n)
    simpa using this
  simp only [h1, takeWhile_all (fun x hx => showNat_digit hx), showNat_ne_nil, if_false]
  rw [show Nat.ofDigitChars 10 (showNat n) 0 = n from Nat.ofDigitChars_ten_toDigits]
  exact ⟨_, rfl⟩

theorem splitLine_append {l r : List Char} (h : ∀ c ∈ l, c ≠ '\n') :
    splitLine (l ++ '\n' :: r) = (l, some r) := by
  induction l with
  | nil => simp [splitLine]
  | cons a l ih =>
    simp only [List.cons_append, splitLine, if_neg (h a (by simp)), ih (fun c hc => h c (by simp [hc]))]

theorem getline_line {l r buf : List Char} (h : ∀ c ∈ l, c ≠ '\n') :
    getline { rest := l ++ '\n' :: r, good := true } buf = ({ rest := r, good := true }, l) := by
  simp [getline, splitLine_append h]

theorem notWs_ne_nl {c : Char} (h : isWs c = false) : c ≠ '\n' := by
  rintro rfl; revert h; decide

theorem show_ne_nl {n : Nat} {c : Char} (h : c ∈ showNat n) : c ≠ '\n' :=
  notWs_ne_nl (isDigit_not_ws (showNat_digit h))

theorem readVal_fmt [Zero α] {K : Codec α} (hK : K.Ok) (v : α) :
    readVal K (' ' :: K.fmt v) = .ok ((K.parse (K.fmt v)).getD 0) := by
  unfold readVal word
  have h1 : (' ' :: K.fmt v).dropWhile isWs = K.fmt v := by
    have := dropWhile_head (p := isWs) (hK v).2 [] (hK v).1
    simpa [isWs] using this
  have h2 : (K.fmt v).takeWhile (fun c => !isWs c) = K.fmt v :=
    takeWhile_all fun c hc => by simp [(hK v).2 c hc]
  simp only [h1, h2, (hK v).1, if_false]

/-- what the user finds after reading an element back -/
def reread [Zero α] (K : Codec α) (L : List (Entry α)) : List (Entry α) :=
  L.map fun e => (e.1, e.2.1, (K.parse (K.fmt e.2.2)).getD 0)

theorem pred64_succ (n : Nat) : pred64 (n + 1) = n := by simp [pred64]

theorem readEntry_line [Zero α] {K : Codec α} (hK : K.Ok) {i r c : Nat} {v : α} {rest buf : List Char}
    {A : Coo α} (h1 : i < A.rowIdx.length) (h2 : i < A.colIdx.length) (h3 : i < A.val.length) :
    ∃ buf', readEntry K i ({ rest := entryLine K r c v ++ rest, good := true }, buf, A) =
      .ok ({ rest := rest, good := true }, buf',
        { A with rowIdx := A.rowIdx.set i r, colIdx := A.colIdx.set i c,
                 val := A.val.set i ((K.parse (K.fmt v)).getD 0) }) := by
  let l := showNat (r + 1) ++ ' ' :: (showNat (c + 1) ++ ' ' :: K.fmt v)
  have hl : entryLine K r c v ++ rest = l ++ '\n' :: rest := by simp [entryLine, l]
  have hnl : ∀ x ∈ l, x ≠ '\n' := by
    intro x hx
    simp only [l, List.mem_append, List.mem_cons] at hx
    rcases hx with h | h | h | h | h
    · exact show_ne_nl h
    · rw [h]; decide
    · exact show_ne_nl h
    · rw [h]; decide
    · exact notWs_ne_nl ((hK v).2 x h)
  refine ⟨l, ?_⟩
  unfold readEntry
  simp only [hl, getline_line hnl]
  have e1 : needNat l = .ok (r + 1, ' ' :: (showNat (c + 1) ++ ' ' :: K.fmt v)) := by
    simp only [needNat, l, readNat_show (show (' ').isDigit = false by decide)]
  have e2 : needNat (' ' :: (showNat (c + 1) ++ ' ' :: K.fmt v)) = .ok (c + 1, ' ' :: K.fmt v) := by
    simp only [needNat, readNat_blank, readNat_show (show (' ').isDigit = false by decide)]
  simp only [e1, e2, Res.ok_bind, readVal_fmt hK, wr_ok h1, wr_ok h2, wr_ok h3, pred64_succ]

theorem printEntries_ok {K : Codec α} {A : Coo α} (h : A.WF) (out : List Char) :
    printEntries K A out = .ok (out ++ linesOf K A.entries) := by
  have hz := h.length_zip3
  have hle := h.nnz_le
  have key := forN_sat (n := A.nnz) (s := out) (body := fun i out => do
      let r ← rd A.rowIdx i
      let c ← rd A.colIdx i
      let v ← rd A.val i
      Res.ok (out ++ entryLine K r c v))
    (fun i (o : List Char) => o = out ++ linesOf K (A.zip3.take i)) (by simp [linesOf]) (by
      rintro i o hi rfl
      have hk : i < A.zip3.length := by omega
      obtain ⟨_, l1, l2, l3, _⟩ := h
      have e1 : rd A.rowIdx i = .ok A.zip3[i].1 := by
        rw [rd_ok (by omega)]; simp [Coo.zip3]
      have e2 : rd A.colIdx i = .ok A.zip3[i].2.1 := by
        rw [rd_ok (by omega)]; simp [Coo.zip3]
      have e3 : rd A.val i = .ok A.zip3[i].2.2 := by
        rw [rd_ok (by omega)]; simp [Coo.zip3]
      simp only [e1, e2, e3, Res.ok_bind]
      refine Res.Sat.ok ?_
      rw [List.take_succ_eq_append_getElem hk]
      unfold linesOf
      rw [List.flatMap_append]
      simp)
  obtain ⟨o, ho, rfl⟩ := key
  exact ho

theorem checkBanner_ok : checkBanner banner = true := by decide

/-- The text `output_mm` writes. -/
theorem C28_output {K : Codec α} {A : Coo α} (h : A.WF) :
    output K A = .ok (banner ++ '\n' :: (showNat A.rowN ++ ' ' :: (showNat A.colN ++ ' ' ::
      (showNat A.nnz ++ '\n' :: linesOf K A.entries)))) := by
  unfold output
  rw [printEntries_ok h]
  simp

theorem set_take_zip {R C : List Nat} {V : List α} {i : Nat} {r c : Nat} {v : α} (h1 : i < R.length)
    (h2 : i < C.length) (h3 : i < V.length) :
    ((R.set i r).zip ((C.set i c).zip (V.set i v))).take (i + 1) =
      (R.zip (C.zip V)).take i ++ [(r, c, v)] := by
  rw [List.take_succ_eq_append_getElem (by simp; omega)]
  congr 1
  · apply List.ext_getElem
    · simp
    · intro k hk1 hk2
      simp at hk1
      simp [List.getElem_set_ne (show i ≠ k by omega)]
  · simp

/-- **C28, general form.** Reading the text written by `output_mm` with `input_mm` (into any existing
well-formed object, whatever it held) gives a matrix with the same dimensions and the same sequence of
positions, each value being the conversion of its own text (0 when that text is not accepted). -/
theorem C28_reread [Zero α] (K : Codec α) (hK : K.Ok) (A B : Coo α) (hA : A.WF) (hB : B.WF)
    (hcol : 0 < A.colN) :
    ∃ text A', output K A = .ok text ∧ input K B text = .ok A' ∧ A'.WF ∧ A'.rowN = A.rowN ∧
      A'.colN = A.colN ∧ A'.nnz = A.nnz ∧ A'.entries = reread K A.entries := by
  have hlen := hA.length_entries
  let f0 : Ifs := { rest := linesOf K A.entries, good := true }
  let line := showNat A.rowN ++ ' ' :: (showNat A.colN ++ ' ' :: showNat A.nnz)
  refine ⟨banner ++ '\n' :: (line ++ '\n' :: linesOf K A.entries), ?_⟩
  have hout : output K A = .ok (banner ++ '\n' :: (line ++ '\n' :: linesOf K A.entries)) := by
    rw [C28_output hA]; simp [line]
  have hb : ∀ c ∈ banner, c ≠ '\n' := by decide
  have hl : ∀ c ∈ line, c ≠ '\n' := by
    intro x hx
    simp only [line, List.mem_append, List.mem_cons] at hx
    rcases hx with h | h | h | h | h
    · exact show_ne_nl h
    · rw [h]; decide
    · exact show_ne_nl h
    · rw [h]; decide
    · exact show_ne_nl h
  have hhead : line.head? ≠ some '%' := by
    intro h
    obtain ⟨a, t, ht⟩ := List.exists_cons_of_ne_nil (showNat_ne_nil A.rowN)
    have hd : a.isDigit = true := showNat_digit (n := A.rowN) (by rw [ht]; simp)
    simp only [line, ht, List.cons_append, List.head?_cons, Option.some.injEq] at h
    rw [h] at hd
    revert hd; decide
  have hskip : ∀ k, skipComments (k + 1) { rest := line ++ '\n' :: linesOf K A.entries, good := true } [] =
      .ok (f0, line) := by
    intro k
    simp only [skipComments, getline_line hl, if_neg hhead]
    rfl
  have n1 : needNat line = .ok (A.rowN, ' ' :: (showNat A.colN ++ ' ' :: showNat A.nnz)) := by
    simp only [needNat, line, readNat_show (show (' ').isDigit = false by decide)]
  have n2 : needNat (' ' :: (showNat A.colN ++ ' ' :: showNat A.nnz)) =
      .ok (A.colN, ' ' :: showNat A.nnz) := by
    simp only [needNat, readNat_blank, readNat_show (show (' ').isDigit = false by decide)]
  obtain ⟨r, hr⟩ := readNat_show_end (n := A.nnz)
  have n3 : needNat (' ' :: showNat A.nnz) = .ok (A.nnz, r) := by
    simp only [needNat, readNat_blank, hr]
  let B1 : Coo α := { B with
        rowN := A.rowN, colN := A.colN, rowIdx := stdResize B.rowIdx A.nnz 0,
        colIdx := stdResize B.colIdx A.nnz 0, created := true }
  have hB1 : ∃ B2, B1.resize A.nnz 0 = .ok B2 ∧ B2.rowN = A.rowN ∧ B2.colN = A.colN ∧ B2.nnz = A.nnz ∧
      B2.alloc = A.nnz ∧ B2.created = true ∧ B2.rowIdx.length = A.nnz ∧ B2.colIdx.length = A.nnz ∧
      B2.val.length = A.nnz := by
    have hmin : min B.nnz A.nnz ≤ B.val.length := by
      have := hB.nnz_le; have := hB.lenV; omega
    refine ⟨⟨A.rowN, A.colN, stdResize (stdResize B.rowIdx A.nnz 0) A.nnz 0,
      stdResize (stdResize B.colIdx A.nnz 0) A.nnz 0,
      B.val.take (min B.nnz A.nnz) ++ List.replicate (A.nnz - min B.nnz A.nnz) 0, A.nnz, A.nnz, true⟩,
      by simp only [B1, Coo.resize, if_true, reallocCopy_ok hmin, Res.ok_bind], rfl, rfl, rfl,
      rfl, rfl, by simp, by simp, ?_⟩
    simp only [List.length_append, List.length_take, List.length_replicate]
    omega
  obtain ⟨B2, hB2, r1, r2, r3, r4, r5, r6, r7, r8⟩ := hB1
  have hloop := forN_sat (n := A.nnz) (s := (f0, line, B2)) (body := readEntry K)
    (fun i (st : Ifs × List Char × Coo α) =>
      st.1 = { rest := linesOf K (A.entries.drop i), good := true } ∧
      st.2.2.rowN = A.rowN ∧ st.2.2.colN = A.colN ∧ st.2.2.nnz = A.nnz ∧ st.2.2.alloc = A.nnz ∧
      st.2.2.created = true ∧ st.2.2.rowIdx.length = A.nnz ∧ st.2.2.colIdx.length = A.nnz ∧
      st.2.2.val.length = A.nnz ∧ st.2.2.zip3.take i = reread K (A.entries.take i))
    ⟨by simp [f0], r1, r2, r3, r4, r5, r6, r7, r8, by simp [reread]⟩ (by
      rintro i ⟨f, buf, C⟩ hi ⟨hf, q1, q2, q3, q4, q5, q6, q7, q8, q9⟩
      simp only at hf q1 q2 q3 q4 q5 q6 q7 q8 q9
      subst hf
      have hi' : i < A.entries.length := by omega
      have hdrop : linesOf K (A.entries.drop i) =
          entryLine K A.entries[i].1 A.entries[i].2.1 A.entries[i].2.2 ++
            linesOf K (A.entries.drop (i + 1)) := by
        unfold linesOf
        rw [List.drop_eq_getElem_cons hi', List.flatMap_cons]
      rw [hdrop]
      obtain ⟨buf', he⟩ := readEntry_line hK (i := i) (r := A.entries[i].1) (c := A.entries[i].2.1)
        (v := A.entries[i].2.2) (rest := linesOf K (A.entries.drop (i + 1))) (buf := buf) (A := C)
        (by omega) (by omega) (by omega)
      refine ⟨_, he, rfl, q1, q2, q3, q4, q5, by simpa using q6, by simpa using q7, by simpa using q8, ?_⟩
      have : A.entries.take (i + 1) = A.entries.take i ++ [A.entries[i]] :=
        List.take_succ_eq_append_getElem hi'
      rw [this]
      unfold Coo.zip3 at q9 ⊢
      rw [set_take_zip (by omega) (by omega) (by omega), q9]
      unfold reread
      rw [List.map_append]
      rfl)
  obtain ⟨⟨f, buf, C⟩, hC, hf, q1, q2, q3, q4, q5, q6, q7, q8, q9⟩ := hloop
  refine ⟨C, hout, ?_, ⟨q5, by simp only at *; omega, by simp only at *; omega, by simp only at *; omega,
    by simp only at *; omega⟩, q1, q2, q3, ?_⟩
  · unfold input
    simp only [getline_line hb, checkBanner_ok, if_true, hskip, Res.ok_bind, n1, n2, n3]
    rw [if_neg (by omega)]
    have hB2' : Coo.resize { B with
        rowN := A.rowN, colN := A.colN, rowIdx := stdResize B.rowIdx A.nnz 0,
        colIdx := stdResize B.colIdx A.nnz 0, created := true } A.nnz 0 = .ok B2 := hB2
    simp only [hB2', Res.ok_bind, hC]
  · rw [Coo.entries_eq]
    simp only at q3 q9
    rw [q3, q9, ← hlen, List.take_length]

/-- **C28.** If every stored value survives printing and parsing, the matrix read back has exactly the
entries that were written. -/
theorem C28_roundtrip [Zero α] (K : Codec α) (hK : K.Ok) (A B : Coo α) (hA : A.WF) (hB : B.WF)
    (hcol : 0 < A.colN) (hv : ∀ e ∈ A.entries, K.parse (K.fmt e.2.2) = some e.2.2) :
    ∃ text A', output K A = .ok text ∧ input K B text = .ok A' ∧ A'.WF ∧ A'.rowN = A.rowN ∧
      A'.colN = A.colN ∧ A'.entries = A.entries := by
  obtain ⟨text, A', h1, h2, h3, h4, h5, -, h6⟩ := C28_reread K hK A B hA hB hcol
  refine ⟨text, A', h1, h2, h3, h4, h5, ?_⟩
  rw [h6, reread]
  conv => rhs; rw [← List.map_id A.entries]
  apply List.map_congr_left
  intro e he
  rw [hv e he]
  rfl

/-- A decimal codec for integers, as a concrete instance. -/
def intCodec : Codec Int where
  fmt x := if x < 0 then '-' :: showNat x.natAbs else showNat x.natAbs
  parse t := match t with
    | '-' :: ds => some (- (Nat.ofDigitChars 10 ds 0 : Int))
    | ds => some (Nat.ofDigitChars 10 ds 0 : Int)

/-- the hypotheses of `C28_reread` and `C28_roundtrip` are met -/
theorem intCodec_ok : intCodec.Ok := by
  intro x
  have hd : ∀ c ∈ showNat x.natAbs, isWs c = false := fun c h => isDigit_not_ws (showNat_digit h)
  unfold intCodec
  simp only
  split
  · refine ⟨by simp, ?_⟩
    intro c hc
    rcases List.mem_cons.1 hc with h | h
    · rw [h]; decide
    · exact hd c h
  · exact ⟨showNat_ne_nil _, hd⟩

example : output intCodec ⟨2, 3, [0, 1, 0], [2, 0, 0], [-7, 12, 0], 2, 3, true⟩ =
      .ok "%%MatrixMarket matrix coordinate real general\n2 3 2\n1 3 -7\n2 1 12\n".toList ∧
    input intCodec (Coo.new 0 0)
      "%%MatrixMarket matrix coordinate real general\n2 3 2\n1 3 -7\n2 1 12\n".toList =
      .ok ⟨2, 3, [0, 1], [2, 0], [-7, 12], 2, 2, true⟩ := by decide +kernel

/-! ### Comments -/

theorem skipComments_lines {rest : List Char} : ∀ (cs : List (List Char)) (fuel : Nat) (buf : List Char),
    (∀ c ∈ cs, c.head? = some '%' ∧ ∀ x ∈ c, x ≠ '\n') → cs.length < fuel →
    ∀ {f : Ifs} {l : List Char}, getline { rest := rest, good := true } [] = (f, l) → l.head? ≠ some '%' →
    skipComments fuel { rest := cs.flatMap (fun c => c ++ ['\n']) ++ rest, good := true } buf =
      .ok (f, l) := by
  intro cs
  induction cs with
  | nil =>
    intro fuel buf _ hf f l hg hl
    obtain ⟨k, rfl⟩ : ∃ k, fuel = k + 1 := ⟨fuel - 1, by simp at hf; omega⟩
    have hg' : getline { rest := rest, good := true } buf = (f, l) := by
      rw [← hg]; simp [getline]
    simp only [skipComments, List.flatMap_nil, List.nil_append, hg', if_neg hl]
  | cons c cs ih =>
    intro fuel buf hc hf f l hg hl
    obtain ⟨k, rfl⟩ : ∃ k, fuel = k + 1 := ⟨fuel - 1, by simp at hf; omega⟩
    have h1 := hc c (by simp)
    have hline : getline { rest := (c :: cs).flatMap (fun c => c ++ ['\n']) ++ rest, good := true } buf =
        ({ rest := cs.flatMap (fun c => c ++ ['\n']) ++ rest, good := true }, c) := by
      have : (c :: cs).flatMap (fun c => c ++ ['\n']) ++ rest =
          c ++ '\n' :: (cs.flatMap (fun c => c ++ ['\n']) ++ rest) := by
        rw [List.flatMap_cons]; simp
      rw [this, getline_line h1.2]
    simp only [skipComments, hline, h1.1, if_true]
    exact ih k c (fun d hd => hc d (by simp [hd])) (by simp at hf; omega) hg hl

/-- **C28 (comments).** Comment lines between the banner and the sizes make no difference: with any
number of them, the file written by `output_mm` is read back exactly as without. -/
theorem C28_comments [Zero α] (K : Codec α) (B : Coo α) (cs : List (List Char)) (body : List Char)
    (hc : ∀ c ∈ cs, c.head? = some '%' ∧ ∀ x ∈ c, x ≠ '\n')
    (hbody : (getline { rest := body, good := true } []).2.head? ≠ some '%') :
    input K B (banner ++ '\n' :: (cs.flatMap (fun c => c ++ ['\n']) ++ body)) =
      input K B (banner ++ '\n' :: body) := by
  have hb : ∀ c ∈ banner, c ≠ '\n' := by decide
  have hlen : cs.length ≤ (cs.flatMap (fun c => c ++ ['\n'])).length := by
    clear hc
    induction cs with
    | nil => simp
    | cons c cs ih => rw [List.flatMap_cons]; simp only [List.length_cons, List.length_append] at *; omega
  rcases hg : getline { rest := body, good := true } [] with ⟨f, l⟩
  rw [hg] at hbody
  have s1 := skipComments_lines cs
    ((banner ++ '\n' :: (cs.flatMap (fun c => c ++ ['\n']) ++ body)).length + 1) [] hc
    (by simp only [List.length_append, List.length_cons]; omega) hg hbody
  have s2 := skipComments_lines [] ((banner ++ '\n' :: body).length + 1) [] (by simp)
    (by simp) hg hbody
  simp only [List.flatMap_nil, List.nil_append] at s2
  unfold input
  simp only [getline_line hb, checkBanner_ok, if_true, s1, s2]

/-! ### Boundaries -/

/-- **C28 (boundary).** A matrix without columns is written but cannot be read back. -/
theorem C28_no_columns_violated [Zero α] (K : Codec α) (A B : Coo α) (hA : A.WF) (hcol : A.colN = 0) :
    ∃ text, output K A = .ok text ∧ ∃ e, input K B text = .abort e := by
  let line := showNat A.rowN ++ ' ' :: (showNat A.colN ++ ' ' :: showNat A.nnz)
  refine ⟨banner ++ '\n' :: (line ++ '\n' :: linesOf K A.entries), ?_, "exit(-1)", ?_⟩
  · rw [C28_output hA]; simp [line]
  have hb : ∀ c ∈ banner, c ≠ '\n' := by decide
  have hl : ∀ c ∈ line, c ≠ '\n' := by
    intro x hx
    simp only [line, List.mem_append, List.mem_cons] at hx
    rcases hx with h | h | h | h | h
    · exact show_ne_nl h
    · rw [h]; decide
    · exact show_ne_nl h
    · rw [h]; decide
    · exact show_ne_nl h
  have hhead : line.head? ≠ some '%' := by
    intro h
    obtain ⟨a, t, ht⟩ := List.exists_cons_of_ne_nil (showNat_ne_nil A.rowN)
    have hd : a.isDigit = true := showNat_digit (n := A.rowN) (by rw [ht]; simp)
    simp only [line, ht, List.cons_append, List.head?_cons, Option.some.injEq] at h
    rw [h] at hd
    revert hd; decide
  obtain ⟨r, hr⟩ := readNat_show_end (n := A.nnz)
  have n1 : needNat line = .ok (A.rowN, ' ' :: (showNat A.colN ++ ' ' :: showNat A.nnz)) := by
    simp only [needNat, line, readNat_show (show (' ').isDigit = false by decide)]
  have n2 : needNat (' ' :: (showNat A.colN ++ ' ' :: showNat A.nnz)) =
      .ok (A.colN, ' ' :: showNat A.nnz) := by
    simp only [needNat, readNat_blank, readNat_show (show (' ').isDigit = false by decide)]
  have n3 : needNat (' ' :: showNat A.nnz) = .ok (A.nnz, r) := by
    simp only [needNat, readNat_blank, hr]
  unfold input
  simp only [getline_line hb, checkBanner_ok, if_true, skipComments, getline_line hl, if_neg hhead,
    Res.ok_bind, n1, n2, n3]
  rw [if_pos (by omega)]

/-- **C28 (boundary).** A value whose text is not accepted by `operator>>` (`inf`, `nan`) is read back
as 0, without any error. -/
theorem C28_nonfinite_violated [Zero α] (K : Codec α) (hK : K.Ok) (x : α) (hx : K.parse (K.fmt x) = none) :
    ∃ text A', output K (⟨1, 1, [0], [0], [x], 1, 1, true⟩ : Coo α) = .ok text ∧
      input K (Coo.new 0 0) text = .ok A' ∧ A'.entries = [(0, 0, 0)] := by
  obtain ⟨text, A', h1, h2, -, -, -, -, h6⟩ := C28_reread K hK (⟨1, 1, [0], [0], [x], 1, 1, true⟩ : Coo α)
    (Coo.new 0 0) ⟨rfl, rfl, rfl, rfl, Nat.le_refl _⟩ (Coo.new_wf 0 0) Nat.one_pos
  refine ⟨text, A', h1, h2, ?_⟩
  rw [h6]
  simp [reread, Coo.entries, hx]

/-- **C28 (truncated file).** A file that announces three entries but ends after the first one, without
a final newline, is accepted: the last line is read again for each missing entry. -/
theorem C28_truncated_violated :
    ∃ A', input intCodec (Coo.new 0 0)
      "%%MatrixMarket matrix coordinate real general\n2 2 3\n1 2 5".toList = .ok A' ∧
      A'.entries = [(0, 1, 5), (0, 1, 5), (0, 1, 5)] :=
  ⟨⟨2, 2, [0, 0, 0], [1, 1, 1], [5, 5, 5], 3, 3, true⟩, by decide +kernel, by decide +kernel⟩

/-- **C28 (truncated file).** With a final newline the missing entries are uninitialised. -/
theorem C28_truncated_newline_violated :
    ∃ e, input intCodec (Coo.new 0 0)
      "%%MatrixMarket matrix coordinate real general\n2 2 3\n1 2 5\n".toList = .ub e :=
  ⟨"use of an uninitialised number", by decide +kernel⟩

/-- **C28 (truncated file).** A file that ends in a comment line without a newline makes `input_mm`
loop for ever. -/
theorem C28_comment_end_violated :
    ∃ e, input intCodec (Coo.new 0 0)
      "%%MatrixMarket matrix coordinate real general\n% end".toList = .ub e :=
  ⟨"endless loop at end of file", by decide +kernel⟩

/-- **C28.** `print_all(filename)` writes exactly the entry lines of `output_mm`. -/
theorem C28_print_all {K : Codec α} {A : Coo α} (h : A.WF) :
    printAll K A = .ok (linesOf K A.entries) := by
  unfold printAll
  rw [printEntries_ok h]; rfl

end Mm
end Verif
