import Verif.Props.Viewer

/-!
C101, second table: the breakdown of the solver calls.
-/

namespace Verif.Viewer

open Log

theorem tops_names (f : Forest) : ∀ t ∈ f.tops, ∀ n ∈ t.names, n ∈ f.names := by
  induction f with
  | nil => intro t h; exact absurd h (List.not_mem_nil)
  | node kd n ti te kids next _ ihn =>
    intro t h m hm
    rcases List.mem_cons.1 h with rfl | h
    · simp only [Forest.names, List.append_nil, List.mem_cons, List.mem_append] at hm ⊢
      rcases hm with h | h
      · exact Or.inl h
      · exact Or.inr (Or.inl h)
    · simp only [Forest.names, List.mem_cons, List.mem_append]
      exact Or.inr (Or.inr (ihn t h m hm))

theorem calls_names (f : Forest) : ∀ c ∈ f.calls, ∀ n ∈ c.1, n ∈ f.names := by
  induction f with
  | nil => intro c h; exact absurd h (List.not_mem_nil)
  | node kd n ti te kids next ihk ihn =>
    intro c h m hm
    simp only [Forest.calls, List.mem_append, List.mem_map, List.mem_cons] at h
    simp only [Forest.names, List.mem_cons, List.mem_append]
    rcases h with ⟨d, hd, rfl⟩ | rfl | h
    · rcases List.mem_cons.1 hm with rfl | hm
      · exact Or.inl rfl
      · exact Or.inr (Or.inl (ihk d hd m hm))
    · exact Or.inl (List.mem_singleton.1 hm)
    · exact Or.inr (Or.inr (ihn c h m hm))

/-- the enclosing call of an inner call was made -/
theorem calls_closed (f : Forest) : ∀ c ∈ f.calls, 2 ≤ c.1.length → c.1.dropLast ∈ paths f.calls := by
  induction f with
  | nil => intro c h; exact absurd h (List.not_mem_nil)
  | node kd n ti te kids next ihk ihn =>
    intro c h hc
    simp only [Forest.calls, List.mem_append, List.mem_map, List.mem_cons] at h
    simp only [paths, Forest.calls, List.map_append, List.map_map, List.map_cons, List.mem_append, List.mem_map,
      List.mem_cons, Function.comp_apply]
    rcases h with ⟨d, hd, rfl⟩ | rfl | h
    · have hne := calls_ne _ d hd
      rw [List.dropLast_cons_of_ne_nil hne]
      by_cases h2 : 2 ≤ d.1.length
      · obtain ⟨e, he, he'⟩ := List.mem_map.1 (ihk d hd h2)
        exact Or.inl ⟨e, he, by rw [he']⟩
      · have h1 : d.1.length = 1 := by have := List.length_pos_iff.2 hne; omega
        obtain ⟨m, hm⟩ := List.length_eq_one_iff.1 h1
        exact Or.inr (Or.inl (by rw [hm]; rfl))
    · simp at hc
    · obtain ⟨e, he, he'⟩ := List.mem_map.1 (ihn c h hc)
      exact Or.inr (Or.inr ⟨e, he, he'⟩)

theorem mem_numbered (f : Forest) : ∀ k g c, (g, c) ∈ numbered k f ↔
    ∃ i t, f.tops[i]? = some t ∧ g = k + i + 1 ∧ c ∈ t.calls := by
  induction f with
  | nil =>
    intro k g c
    constructor
    · intro h; exact absurd h (List.not_mem_nil)
    · rintro ⟨i, t, h, _⟩
      simp [Forest.tops] at h
  | node kd n ti te kids next _ ihn =>
    intro k g c
    rw [numbered, List.mem_append, ihn]
    constructor
    · rintro (h | ⟨i, t, h1, h2, h3⟩)
      · obtain ⟨c', h1, h2⟩ := List.mem_map.1 h
        cases h2
        exact ⟨0, _, rfl, rfl, h1⟩
      · exact ⟨i + 1, t, by simpa [Forest.tops] using h1, by omega, h3⟩
    · rintro ⟨i, t, h1, h2, h3⟩
      cases i with
      | zero =>
        simp only [Forest.tops, List.getElem?_cons_zero, Option.some.injEq] at h1
        subst h1
        exact Or.inl (List.mem_map.2 ⟨c, h3, by rw [h2]⟩)
      | succ i =>
        exact Or.inr ⟨i, t, by simpa [Forest.tops] using h1, by omega, h3⟩

theorem numbered_lt (f : Forest) (k g : Nat) (h : g ≤ k) : (numbered k f).filter (fun x => x.1 = g) = [] := by
  rw [List.filter_eq_nil_iff]
  rintro ⟨a, c⟩ hx
  obtain ⟨i, t, _, h2, _⟩ := (mem_numbered f k a c).1 hx
  simp only [decide_eq_true_eq]
  omega

theorem filter_const {α : Type} (l : List α) (k g : Nat) :
    (l.map (fun c => (k, c))).filter (fun x => x.1 = g) = if k = g then l.map (fun c => (k, c)) else [] := by
  split
  · rename_i h
    rw [List.filter_eq_self]
    intro x hx
    obtain ⟨c, _, rfl⟩ := List.mem_map.1 hx
    simpa using h
  · rename_i h
    rw [List.filter_eq_nil_iff]
    intro x hx
    obtain ⟨c, _, rfl⟩ := List.mem_map.1 hx
    simpa using h

theorem numbered_filter (f : Forest) : ∀ k i t, f.tops[i]? = some t →
    ((numbered k f).filter (fun x => x.1 = k + i + 1)).map (·.2) = t.calls := by
  induction f with
  | nil => intro k i t h; simp [Forest.tops] at h
  | node kd n ti te kids next _ ihn =>
    intro k i t h
    rw [numbered, List.filter_append, filter_const]
    cases i with
    | zero =>
      simp only [Forest.tops, List.getElem?_cons_zero, Option.some.injEq] at h
      subst h
      rw [if_pos (by omega), numbered_lt _ _ _ (by omega), List.append_nil, List.map_map]
      exact List.map_id _
    | succ i =>
      rw [if_neg (by omega), List.nil_append]
      have := ihn (k + 1) i t (by simpa [Forest.tops] using h)
      rw [show k + (i + 1) + 1 = k + 1 + i + 1 by omega]
      exact this

/-- the row of the outermost call number `i` (from 0) and the path `p` -/
def rowOf (i : Nat) (C : List (List String × Rat)) (p : List String) : Base :=
  { group := i + 1
    layer := p.length
    name := pathText p
    parent := pathText p.dropLast
    hasChild := (paths C).any (fun q => 2 ≤ q.length ∧ q.dropLast = p)
    time := total C p
    cnt := times C p }

theorem hasChild_iff (C : List (List String × Rat)) (p : List String) :
    (paths C).any (fun q => 2 ≤ q.length ∧ q.dropLast = p) = true ↔ hasInner C p := by
  unfold hasInner
  simp

/-- names of paths of a top are plain -/
theorem path_plain {P : Forest} (hP : Plain P) {i : Nat} {t : Forest} (ht : P.tops[i]? = some t) {c : List String × Rat}
    (hc : c ∈ t.calls) : ∀ n ∈ c.1, '/' ∉ n.toList :=
  fun n hn => hP n (tops_names P t (List.mem_of_getElem? ht) n (calls_names t c hc n hn))

theorem key_iff {P : Forest} (hP : Plain P) (g : Nat) (x : List Char) :
    (g, x) ∈ groupKeys keyLe ((grouped (recs P [])).map (fun p => (p.1, p.2.name))) ↔
      ∃ i t p, P.tops[i]? = some t ∧ p ∈ paths t.calls ∧ g = i + 1 ∧ x = pathText p := by
  have hg : grouped (recs P []) = groupedFrom 0 (recs P []) := rfl
  rw [mem_groupKeys, hg, grouped_recs hP, List.map_map, List.mem_map]
  constructor
  · rintro ⟨⟨a, c⟩, h, e⟩
    obtain ⟨i, t, h1, h2, h3⟩ := (mem_numbered P 0 a c).1 h
    simp only [Function.comp_apply, done, List.nil_append, Prod.mk.injEq] at e
    exact ⟨i, t, c.1, h1, List.mem_map_of_mem h3, by omega, e.2.symm⟩
  · rintro ⟨i, t, p, h1, h2, h3, h4⟩
    obtain ⟨c, hc, rfl⟩ := List.mem_map.1 h2
    refine ⟨(i + 1, c), (mem_numbered P 0 _ c).2 ⟨i, t, h1, by omega, hc⟩, ?_⟩
    simp [done, h3, h4]

theorem col_eq {P : Forest} (hP : Plain P) {i : Nat} {t : Forest} (ht : P.tops[i]? = some t) {p : List String}
    (hp : ∀ n ∈ p, '/' ∉ n.toList) :
    (((grouped (recs P [])).filter (fun q => (q.1, q.2.name) = (i + 1, pathText p))).map (·.2.time)).filterMap id =
      (t.calls.filter (fun c => c.1 = p)).map (·.2) := by
  have hg : grouped (recs P []) = groupedFrom 0 (recs P []) := rfl
  rw [hg, grouped_recs hP, List.filter_map, List.map_map]
  have e1 : (numbered 0 P).filter ((fun q : Nat × Rec => decide ((q.1, q.2.name) = (i + 1, pathText p))) ∘
      fun c => (c.1, done [] c.2)) =
      ((numbered 0 P).filter (fun x => x.1 = 0 + i + 1)).filter (fun x => decide (x.2.1 = p)) := by
    rw [List.filter_filter]
    refine List.filter_congr ?_
    rintro ⟨a, c⟩ hx
    obtain ⟨j, s, h1, h2, h3⟩ := (mem_numbered P 0 a c).1 hx
    have hc := path_plain hP h1 h3
    simp only [Function.comp_apply, done, List.nil_append, Prod.mk.injEq]
    rw [Bool.eq_iff_iff]
    simp only [decide_eq_true_eq, Bool.and_eq_true]
    constructor
    · rintro ⟨h, h'⟩
      exact ⟨pathText_inj hc hp h', by omega⟩
    · rintro ⟨h, h'⟩
      exact ⟨by omega, by rw [h]⟩
  rw [e1, ← numbered_filter P 0 i t ht, List.filter_map, List.map_map]
  generalize List.filter (fun x => decide (x.1 = 0 + i + 1)) (numbered 0 P) = L
  have e2 : ((fun c : List String × Rat => decide (c.1 = p)) ∘ fun x : Nat × (List String × Rat) => x.2) =
    fun x => decide (x.2.1 = p) := rfl
  rw [e2]
  generalize List.filter (fun x : Nat × (List String × Rat) => decide (x.2.1 = p)) L = M
  induction M with
  | nil => rfl
  | cons a M ih =>
    rw [List.map_cons, List.filterMap_cons, ih]
    rfl

/-- the rows of the table before the selection -/
theorem mem_base {P : Forest} (hP : Plain P) (b : Base) :
    b ∈ base (recs P []) ↔ ∃ i t p, P.tops[i]? = some t ∧ p ∈ paths t.calls ∧ b = rowOf i t.calls p := by
  unfold base
  rw [List.mem_map]
  have row : ∀ i t p, P.tops[i]? = some t → p ∈ paths t.calls →
      ({ group := i + 1
         layer := layer (pathText p)
         name := pathText p
         parent := parentOf (pathText p)
         hasChild := (groupKeys keyLe ((grouped (recs P [])).map (fun p => (p.1, p.2.name)))).any
           (fun k' => k'.1 = i + 1 ∧ parentOf k'.2 = pathText p)
         time := colSum (((grouped (recs P [])).filter (fun q => (q.1, q.2.name) = (i + 1, pathText p))).map (·.2.time))
         cnt := colCount (((grouped (recs P [])).filter (fun q => (q.1, q.2.name) = (i + 1, pathText p))).map
          (·.2.time)) } : Base) = rowOf i t.calls p := by
    intro i t p ht hp
    obtain ⟨c, hc, rfl⟩ := List.mem_map.1 hp
    have hpl := path_plain hP ht hc
    unfold rowOf
    rw [layer_path hpl, parent_path hpl]
    unfold colSum colCount
    rw [col_eq hP ht hpl, List.length_map]
    congr 1
    rw [Bool.eq_iff_iff]
    simp only [List.any_eq_true, decide_eq_true_eq]
    constructor
    · rintro ⟨⟨g, x⟩, hk, h1, h2⟩
      obtain ⟨j, s, q, h3, h4, h5, h6⟩ := (key_iff hP g x).1 hk
      dsimp only at h1 h2
      have hij : j = i := by omega
      subst hij
      rw [ht] at h3; cases h3
      subst h6
      obtain ⟨d, hd, rfl⟩ := List.mem_map.1 h4
      have hdp := path_plain hP ht hd
      rw [parent_path hdp] at h2
      have h7 := pathText_inj (fun n hn => hdp n ((List.dropLast_sublist _).subset hn)) hpl h2
      refine ⟨d.1, h4, ?_, h7⟩
      have h8 : d.1.dropLast ≠ [] := by rw [h7]; exact calls_ne _ c hc
      have h9 := List.length_pos_iff.2 h8
      rw [List.length_dropLast] at h9
      omega
    · rintro ⟨q, h1, h2, h3⟩
      refine ⟨(i + 1, pathText q), (key_iff hP _ _).2 ⟨i, t, q, ht, h1, rfl, rfl⟩, rfl, ?_⟩
      obtain ⟨d, hd, rfl⟩ := List.mem_map.1 h1
      rw [parent_path (path_plain hP ht hd), h3]
  constructor
  · rintro ⟨⟨g, x⟩, hk, rfl⟩
    obtain ⟨i, t, p, h1, h2, h3, h4⟩ := (key_iff hP g x).1 hk
    subst h3 h4
    exact ⟨i, t, p, h1, h2, row i t p h1 h2⟩
  · rintro ⟨i, t, p, h1, h2, rfl⟩
    exact ⟨(i + 1, pathText p), (key_iff hP _ _).2 ⟨i, t, p, h1, h2, rfl, rfl⟩, row i t p h1 h2⟩

/-! ### Percentages -/

theorem base_key {P : Forest} (hP : Plain P) {i : Nat} {t : Forest} (ht : P.tops[i]? = some t) {p : List String}
    (hp : p ∈ paths t.calls) {b : Base} (hb : b ∈ base (recs P [])) (h1 : b.group = i + 1) (h2 : b.name = pathText p) :
    b = rowOf i t.calls p := by
  obtain ⟨j, s, q, h3, h4, rfl⟩ := (mem_base hP b).1 hb
  have hij : j = i := by have : j + 1 = i + 1 := h1; omega
  subst hij
  rw [ht] at h3; cases h3
  obtain ⟨c, hc, rfl⟩ := List.mem_map.1 hp
  obtain ⟨d, hd, rfl⟩ := List.mem_map.1 h4
  rw [pathText_inj (path_plain hP ht hd) (path_plain hP ht hc) h2]

theorem percent_eq {P : Forest} (hP : Plain P) {i : Nat} {t : Forest} (ht : P.tops[i]? = some t) {p : List String}
    (hp : p ∈ paths t.calls) (n : Nat) :
    percent (base (recs P [])) (n + 1) (rowOf i t.calls p) = columns t.calls p (n + 1) := by
  obtain ⟨c, hc, rfl⟩ := List.mem_map.1 hp
  have hpl := path_plain hP ht hc
  unfold percent columns
  have e1 : ((rowOf i t.calls c.1).layer = n + 1 ∧ (rowOf i t.calls c.1).hasChild = true) ↔
      (c.1.length = n + 1 ∧ hasInner t.calls c.1) := by
    rw [← hasChild_iff]; rfl
  by_cases hA : c.1.length = n + 1 ∧ hasInner t.calls c.1
  · rw [if_pos (e1.2 hA), if_pos hA]
  · rw [if_neg (fun h => hA (e1.1 h)), if_neg hA]
    have e2 : (rowOf i t.calls c.1).layer = c.1.length := rfl
    rw [e2]
    by_cases h2 : c.1.length = n + 1 + 1
    · rw [if_pos (Or.inr h2)]
      have hpar := calls_closed t c hc (by omega)
      have hrow : rowOf i t.calls c.1.dropLast ∈ base (recs P []) := (mem_base hP _).2 ⟨i, t, _, ht, hpar, rfl⟩
      cases hf : (base (recs P [])).find? (fun q => decide ((q.layer = n + 1 ∨ q.layer = n + 1 + 1) ∧
          q.group = (rowOf i t.calls c.1).group ∧ q.name = (rowOf i t.calls c.1).parent)) with
      | none =>
        exfalso
        have := List.find?_eq_none.1 hf _ hrow
        apply this
        simp only [decide_eq_true_eq]
        refine ⟨Or.inl ?_, rfl, rfl⟩
        show c.1.dropLast.length = _
        rw [List.length_dropLast]; omega
      | some q =>
        have hq := List.mem_of_find?_eq_some hf
        have hq' := List.find?_some hf
        simp only [decide_eq_true_eq] at hq'
        have : q = rowOf i t.calls c.1.dropLast := base_key hP ht hpar hq hq'.2.1 hq'.2.2
        subst this
        have e3 : (rowOf i t.calls c.1.dropLast).time = total t.calls c.1.dropLast := rfl
        have e4 : (rowOf i t.calls c.1).time = total t.calls c.1 := rfl
        have e5 : (rowOf i t.calls c.1).cnt = times t.calls c.1 := rfl
        simp only [e3, e4, e5]
        by_cases h0 : total t.calls c.1.dropLast = 0
        · rw [if_pos h0, if_neg (fun h => h.2 h0)]
        · rw [if_neg h0, if_pos ⟨h2, h0⟩]
          rfl
    · rw [if_neg (c := c.1.length = n + 1 + 1 ∧ _) (fun h => h2 h.1)]
      split
      · rename_i h3
        have h3 : c.1.length = n + 1 := by omega
        cases hf : (base (recs P [])).find? (fun q => decide ((q.layer = n + 1 ∨ q.layer = n + 1 + 1) ∧
            q.group = (rowOf i t.calls c.1).group ∧ q.name = (rowOf i t.calls c.1).parent)) with
        | none => rfl
        | some q =>
          exfalso
          have hq := List.mem_of_find?_eq_some hf
          have hq' := List.find?_some hf
          simp only [decide_eq_true_eq] at hq'
          obtain ⟨j, s, r, h4, h5, rfl⟩ := (mem_base hP q).1 hq
          obtain ⟨d, hd, rfl⟩ := List.mem_map.1 h5
          have h6 : pathText d.1 = pathText c.1.dropLast := hq'.2.2
          have h7 := pathText_inj (path_plain hP h4 hd)
            (fun m hm => hpl m ((List.dropLast_sublist _).subset hm)) h6
          have h8 : d.1.length = n + 1 ∨ d.1.length = n + 1 + 1 := hq'.1
          rw [h7, List.length_dropLast] at h8
          omega
      · rfl

/-! ### Solver calls -/

theorem infix_step {s w : List Char} (hs : '/' ∉ s) (hw : '/' ∉ w) (l : List Char) :
    s ++ ['/'] <:+: w ++ '/' :: l ↔ s <:+ w ∨ s ++ ['/'] <:+: l := by
  constructor
  · rintro ⟨a, b, h⟩
    rw [List.append_assoc, List.append_assoc] at h
    rcases List.append_eq_append_iff.1 h with ⟨u, h1, h2⟩ | ⟨u, h1, h2⟩
    · -- w = a ++ u, s / b = u / l
      rw [List.singleton_append] at h2
      rcases List.append_eq_append_iff.1 h2 with ⟨v, h3, h4⟩ | ⟨v, h3, h4⟩
      · -- u = s ++ v
        cases v with
        | nil => left; rw [h1, h3, List.append_nil]; exact List.suffix_append _ _
        | cons x v =>
          simp only [List.cons_append, List.cons.injEq] at h4
          exact absurd (by rw [h1, h3, ← h4.1]; simp) hw
      · -- s = u ++ v
        cases v with
        | nil => left; rw [h1, h3, List.append_nil]; exact List.suffix_append _ _
        | cons x v =>
          simp only [List.cons_append, List.cons.injEq] at h4
          exact absurd (by rw [h3, ← h4.1]; simp) hs
    · cases u with
      | nil =>
        -- a = w, s / b = / l
        cases s with
        | nil => left; exact List.nil_suffix
        | cons x s =>
          simp only [List.nil_append, List.cons_append, List.cons.injEq] at h2
          exact absurd (by rw [h2.1]; simp) hs
      | cons x u =>
        simp only [List.cons_append, List.cons.injEq] at h2
        right
        exact ⟨u, b, by rw [h2.2]; simp⟩
  · rintro (⟨a, rfl⟩ | ⟨a, b, rfl⟩)
    · exact ⟨a, l, by simp⟩
    · exact ⟨w ++ '/' :: a, b, by simp⟩

theorem contains_path {p : List String} (hp : ∀ n ∈ p, '/' ∉ n.toList) :
    contains "solve/".toList (pathText p) = true ↔ Solves p := by
  rw [contains_iff]
  have hs : '/' ∉ "solve".toList := by decide
  have he : "solve/".toList = "solve".toList ++ ['/'] := by decide
  rw [he]
  unfold Solves
  induction p with
  | nil =>
    constructor
    · intro h
      have := List.infix_nil.1 (show _ <:+: [] from h)
      simp at this
    · rintro ⟨n, h, _⟩; exact absurd h (List.not_mem_nil)
  | cons n p ih =>
    have e : pathText (n :: p) = n.toList ++ '/' :: pathText p := by
      show (n.toList ++ ['/']) ++ pathText p = _
      simp
    rw [e, infix_step hs (hp n List.mem_cons_self)]
    have ih' := ih (fun m hm => hp m (List.mem_cons_of_mem _ hm))
    refine (or_congr Iff.rfl ih').trans ?_
    simp

/-! ### Group numbers -/

theorem mem_unique (l : List Nat) (x : Nat) : x ∈ unique l ↔ x ∈ l := by
  induction l with
  | nil => exact Iff.rfl
  | cons a l ih =>
    rw [unique, List.mem_cons, List.mem_filter, ih, List.mem_cons]
    by_cases h : x = a
    · simp [h]
    · simp [h]

theorem unique_sorted (l : List Nat) (h : l.Pairwise (· ≤ ·)) : (unique l).Pairwise (· < ·) := by
  induction l with
  | nil => exact List.Pairwise.nil
  | cons a l ih =>
    rw [List.pairwise_cons] at h
    rw [unique, List.pairwise_cons]
    refine ⟨?_, (ih h.2).filter _⟩
    intro b hb
    rw [List.mem_filter, mem_unique] at hb
    have h1 := h.1 b hb.1
    have h2 : b ≠ a := by simpa using hb.2
    omega

theorem idxOf_sorted (l : List Nat) (h : l.Pairwise (· < ·)) (g : Nat) (hg : g ∈ l) :
    l.idxOf g = (l.filter (· < g)).length := by
  induction l with
  | nil => exact absurd hg (List.not_mem_nil)
  | cons a l ih =>
    rw [List.pairwise_cons] at h
    by_cases e : a = g
    · subst e
      rw [List.idxOf_cons_self, List.filter_cons_of_neg (by simp), List.filter_eq_nil_iff.2]
      · rfl
      · intro b hb
        have := h.1 b hb
        simp; omega
    · have hg' : g ∈ l := by
        rcases List.mem_cons.1 hg with h' | h'
        · exact absurd h'.symm e
        · exact h'
      have := h.1 g hg'
      rw [List.idxOf_cons_ne _ e, ih h.2 hg', List.filter_cons_of_pos (by simpa using this)]
      rfl

theorem mem_calls_tops (f : Forest) (c : List String × Rat) :
    c ∈ f.calls ↔ ∃ (i : Nat) (t : Forest), f.tops[i]? = some t ∧ c ∈ t.calls := by
  induction f with
  | nil =>
    constructor
    · intro h; exact absurd h (List.not_mem_nil)
    · rintro ⟨i, t, h, _⟩; simp [Forest.tops] at h
  | node kd n ti te kids next _ ihn =>
    have e : c ∈ (Forest.node kd n ti te kids next).calls ↔
        c ∈ (Forest.node kd n ti te kids .nil).calls ∨ c ∈ next.calls := by
      simp [Forest.calls, or_assoc]
    rw [e, ihn]
    constructor
    · rintro (h | ⟨i, t, h1, h2⟩)
      · exact ⟨0, _, rfl, h⟩
      · exact ⟨i + 1, t, by simpa [Forest.tops] using h1, h2⟩
    · rintro ⟨i, t, h1, h2⟩
      cases i with
      | zero =>
        simp only [Forest.tops, List.getElem?_cons_zero, Option.some.injEq] at h1
        subst h1
        exact Or.inl h2
      | succ i => exact Or.inr ⟨i, t, by simpa [Forest.tops] using h1, h2⟩

theorem base_keys (rows : List Rec) : (base rows).map (fun b => (b.group, b.name)) =
    groupKeys keyLe ((grouped rows).map (fun p => (p.1, p.2.name))) := by
  unfold base
  rw [List.map_map]
  exact List.map_id _

theorem base_sorted (rows : List Rec) : ((base rows).map (·.group)).Pairwise (· ≤ ·) := by
  have h : ((base rows).map (fun b => (b.group, b.name))).Pairwise (fun a b => keyLe a b = true) := by
    rw [base_keys]
    have : IsTrans (Nat × List Char) (fun a b => keyLe a b = true) := ⟨keyLe_trans⟩
    have : Std.Total (fun a b : Nat × List Char => keyLe a b = true) :=
      ⟨fun a b => by simpa using keyLe_total a b⟩
    exact List.pairwise_insertionSort _ _
  rw [List.pairwise_map] at h ⊢
  refine h.imp ?_
  intro a b hab
  unfold keyLe at hab
  simp only [Bool.or_eq_true, Bool.and_eq_true, decide_eq_true_eq] at hab
  omega

theorem foldr_max_spec (l : List Nat) :
    (∀ x ∈ l, x ≤ l.foldr max 0) ∧ (l.foldr max 0 = 0 ∨ l.foldr max 0 ∈ l) := by
  induction l with
  | nil => exact ⟨fun x h => absurd h (List.not_mem_nil), Or.inl rfl⟩
  | cons a l ih =>
    rw [List.foldr_cons]
    constructor
    · intro x hx
      rcases List.mem_cons.1 hx with rfl | hx
      · exact Nat.le_max_left _ _
      · exact (ih.1 x hx).trans (Nat.le_max_right _ _)
    · rcases Nat.le_total a (l.foldr max 0) with h | h
      · rw [Nat.max_eq_right h]
        rcases ih.2 with h' | h'
        · exact Or.inl h'
        · exact Or.inr (List.mem_cons_of_mem _ h')
      · rw [Nat.max_eq_left h]
        exact Or.inr List.mem_cons_self

theorem tops_ne {f : Forest} (h : f ≠ .nil) : ∃ t p, f.tops[0]? = some t ∧ p ∈ paths t.calls := by
  cases f with
  | nil => exact absurd rfl h
  | node kd n ti te kids next =>
    exact ⟨_, [n], rfl, by simp [paths, Forest.calls]⟩

/-- **C101, second table**: for every execution in which at least one call is logged, the second table has exactly
one row for every outermost logged call `t` and every path `p` of calls in it that is (in) a solver call: the
path, its depth, the number of `t` among the outermost calls with solver calls, the total duration and the number
of the calls with this path in `t`, and the shares of these calls in the enclosing calls. -/
theorem C101_solver (F : Forest) (level : Nat) (hF : Plain F) (hne : F.prune level ≠ .nil) :
    ∃ T m, solver ((F.lines level []).map recOf) = .ok T ∧ Deepest (F.prune level) m ∧
      (T.map (fun r => (r.group, r.name))).Nodup ∧
      ∀ r, r ∈ T ↔ ∃ i t p, (F.prune level).tops[i]? = some t ∧ p ∈ paths t.calls ∧ Solves p ∧
        r = { name := pathText p
              layer := p.length
              group := rank (F.prune level).tops i
              time := total t.calls p
              cnt := times t.calls p
              pers := (List.range (m - 1)).map (fun n => columns t.calls p (n + 1)) } := by
  rw [lines_prune]
  have hP : Plain (F.prune level) := fun n hn => hF n (prune_names level F n hn)
  generalize F.prune level = P at *
  have hr : (P.lines 3 []).map recOf = recs P [] := rfl
  rw [hr]
  unfold solver
  obtain ⟨t0, p0, ht0, hp0⟩ := tops_ne hne
  have hB : base (recs P []) ≠ [] := List.ne_nil_of_mem ((mem_base hP _).2 ⟨0, t0, p0, ht0, hp0, rfl⟩)
  rw [if_neg hB]
  -- the selected rows
  have hS : ∀ b, b ∈ (base (recs P [])).filter (fun b => contains "solve/".toList b.name) ↔
      ∃ i t p, P.tops[i]? = some t ∧ p ∈ paths t.calls ∧ Solves p ∧ b = rowOf i t.calls p := by
    intro b
    rw [List.mem_filter, mem_base hP]
    constructor
    · rintro ⟨⟨i, t, p, h1, h2, rfl⟩, h3⟩
      obtain ⟨c, hc, rfl⟩ := List.mem_map.1 h2
      exact ⟨i, t, c.1, h1, h2, (contains_path (path_plain hP h1 hc)).1 h3, rfl⟩
    · rintro ⟨i, t, p, h1, h2, h3, rfl⟩
      obtain ⟨c, hc, rfl⟩ := List.mem_map.1 h2
      exact ⟨⟨i, t, c.1, h1, h2, rfl⟩, (contains_path (path_plain hP h1 hc)).2 h3⟩
  have hsort : (((base (recs P [])).filter (fun b => contains "solve/".toList b.name)).map (·.group)).Pairwise
      (· ≤ ·) := (base_sorted _).sublist (List.filter_sublist.map _)
  have hnd : (((base (recs P [])).filter (fun b => contains "solve/".toList b.name)).map
      (fun b => (b.group, b.name))).Nodup := by
    have := nodup_groupKeys keyLe ((grouped (recs P [])).map (fun p => (p.1, p.2.name)))
    rw [← base_keys] at this
    exact this.sublist (List.filter_sublist.map _)
  generalize (base (recs P [])).filter (fun b => contains "solve/".toList b.name) = S at *
  -- group numbers
  have hgroups : ∀ g, g ∈ unique (S.map (·.group)) ↔ ∃ i t, P.tops[i]? = some t ∧ HasSolve t ∧ g = i + 1 := by
    intro g
    rw [mem_unique, List.mem_map]
    constructor
    · rintro ⟨b, hb, rfl⟩
      obtain ⟨i, t, p, h1, h2, h3, rfl⟩ := (hS b).1 hb
      exact ⟨i, t, h1, ⟨p, h2, h3⟩, rfl⟩
    · rintro ⟨i, t, h1, ⟨p, h2, h3⟩, rfl⟩
      exact ⟨_, (hS _).2 ⟨i, t, p, h1, h2, h3, rfl⟩, rfl⟩
  have hlt := unique_sorted _ hsort
  have hrank : ∀ i, i + 1 ∈ unique (S.map (·.group)) →
      (unique (S.map (·.group))).idxOf (i + 1) + 1 = rank P.tops i := by
    intro i hi
    rw [idxOf_sorted _ hlt _ hi]
    unfold rank
    congr 1
    classical
    have hperm : ((unique (S.map (·.group))).filter (· < i + 1)).Perm
        (((List.range i).filter (fun j => ∃ t, P.tops[j]? = some t ∧ HasSolve t)).map (· + 1)) := by
      rw [List.perm_ext_iff_of_nodup]
      · intro g
        rw [List.mem_filter, hgroups, List.mem_map]
        constructor
        · rintro ⟨⟨j, t, h1, h2, rfl⟩, h3⟩
          refine ⟨j, ?_, rfl⟩
          rw [List.mem_filter, List.mem_range]
          have : j + 1 < i + 1 := by simpa using h3
          exact ⟨by omega, by simpa using ⟨t, h1, h2⟩⟩
        · rintro ⟨j, hj, rfl⟩
          rw [List.mem_filter, List.mem_range] at hj
          obtain ⟨t, h1, h2⟩ : ∃ t, P.tops[j]? = some t ∧ HasSolve t := by simpa using hj.2
          exact ⟨⟨j, t, h1, h2, rfl⟩, by simpa using hj.1⟩
      · exact (hlt.imp (fun h => Nat.ne_of_lt h)).filter _
      · refine (List.nodup_range.filter _).map ?_
        intro a b h
        have : a + 1 = b + 1 := h
        omega
    have := hperm.length_eq
    rw [List.length_map] at this
    rw [this]
  -- depth
  have hdeep : Deepest P (maxLayer S) := by
    obtain ⟨h1, h2⟩ := foldr_max_spec (S.map (·.layer))
    constructor
    · intro p hp hs
      obtain ⟨c, hc, rfl⟩ := List.mem_map.1 hp
      obtain ⟨i, t, h3, h4⟩ := (mem_calls_tops P c).1 hc
      have := (hS _).2 ⟨i, t, c.1, h3, List.mem_map_of_mem h4, hs, rfl⟩
      exact h1 _ (List.mem_map.2 ⟨_, this, rfl⟩)
    · rcases h2 with h2 | h2
      · exact Or.inl h2
      · right
        obtain ⟨b, hb, hb'⟩ := List.mem_map.1 h2
        obtain ⟨i, t, p, h3, h4, h5, rfl⟩ := (hS b).1 hb
        obtain ⟨c, hc, rfl⟩ := List.mem_map.1 h4
        exact ⟨c.1, List.mem_map_of_mem ((mem_calls_tops P c).2 ⟨i, t, h3, hc⟩), h5, hb'⟩
  refine ⟨_, maxLayer S, rfl, hdeep, ?_, ?_⟩
  · rw [List.map_map]
    have h1 : S.Nodup := List.Nodup.of_map _ hnd
    refine List.Nodup.map_on ?_ h1
    intro a ha b hb hab
    simp only [Function.comp_apply, Prod.mk.injEq, Nat.add_right_cancel_iff] at hab
    have ha' : a.group ∈ unique (S.map (·.group)) := (mem_unique _ _).2 (List.mem_map_of_mem ha)
    have hg : a.group = b.group := (List.idxOf_inj ha').1 hab.1
    exact List.inj_on_of_nodup_map hnd ha hb (by rw [hg, hab.2])
  · intro r
    rw [List.mem_map]
    have hrow : ∀ i t p, P.tops[i]? = some t → p ∈ paths t.calls → Solves p →
        ({ name := (rowOf i t.calls p).name
           layer := (rowOf i t.calls p).layer
           group := (unique (S.map (·.group))).idxOf (rowOf i t.calls p).group + 1
           time := (rowOf i t.calls p).time
           cnt := (rowOf i t.calls p).cnt
           pers := (List.range (maxLayer S - 1)).map
             (fun n => percent (base (recs P [])) (n + 1) (rowOf i t.calls p)) } : Row2) =
        { name := pathText p
          layer := p.length
          group := rank P.tops i
          time := total t.calls p
          cnt := times t.calls p
          pers := (List.range (maxLayer S - 1)).map (fun n => columns t.calls p (n + 1)) } := by
      intro i t p h1 h2 h3
      have h4 : i + 1 ∈ unique (S.map (·.group)) := (hgroups _).2 ⟨i, t, h1, ⟨p, h2, h3⟩, rfl⟩
      have h5 := hrank i h4
      simp only [percent_eq hP h1 h2]
      rw [← h5]
      rfl
    constructor
    · rintro ⟨b, hb, rfl⟩
      obtain ⟨i, t, p, h1, h2, h3, rfl⟩ := (hS b).1 hb
      exact ⟨i, t, p, h1, h2, h3, hrow i t p h1 h2 h3⟩
    · rintro ⟨i, t, p, h1, h2, h3, rfl⟩
      exact ⟨_, (hS _).2 ⟨i, t, p, h1, h2, h3, rfl⟩, hrow i t p h1 h2 h3⟩

end Verif.Viewer
