import Verif.Lemmas.Viewer
import Verif.Props.Logger
import Mathlib.Data.List.Sort

/-!
C101: the log viewer shows what happened.
-/

namespace Verif.Viewer

open Log

/-! ### Sorting by keys -/

theorem nameLe_trans (a b c : List Char) (h : nameLe a b = true) (h' : nameLe b c = true) : nameLe a c = true := by
  unfold nameLe at *
  simp only [decide_eq_true_eq] at *
  exact List.le_trans h h'

theorem nameLe_total (a b : List Char) : (nameLe a b || nameLe b a) = true := by
  unfold nameLe
  simp only [Bool.or_eq_true, decide_eq_true_eq]
  exact List.le_total a b

theorem keyLe_trans (a b c : Nat × List Char) (h : keyLe a b = true) (h' : keyLe b c = true) :
    keyLe a c = true := by
  unfold keyLe at *
  simp only [Bool.or_eq_true, Bool.and_eq_true, decide_eq_true_eq] at *
  rcases h with h | ⟨h, h1⟩ <;> rcases h' with h' | ⟨h', h2⟩
  · left; omega
  · left; omega
  · left; omega
  · right; exact ⟨h.trans h', nameLe_trans _ _ _ h1 h2⟩

theorem keyLe_total (a b : Nat × List Char) : (keyLe a b || keyLe b a) = true := by
  unfold keyLe
  have := nameLe_total a.2 b.2
  simp only [Bool.or_eq_true, Bool.and_eq_true, decide_eq_true_eq] at *
  rcases Nat.lt_trichotomy a.1 b.1 with h | h | h
  · exact Or.inl (Or.inl h)
  · rcases this with h1 | h1
    · exact Or.inl (Or.inr ⟨h, h1⟩)
    · exact Or.inr (Or.inr ⟨h.symm, h1⟩)
  · exact Or.inr (Or.inl h)

theorem mem_groupKeys {κ : Type} [DecidableEq κ] {le : κ → κ → Bool} {l : List κ} {k : κ} :
    k ∈ groupKeys le l ↔ k ∈ l := by
  unfold groupKeys
  rw [List.mem_insertionSort, List.mem_dedup]

theorem nodup_groupKeys {κ : Type} [DecidableEq κ] (le : κ → κ → Bool) (l : List κ) : (groupKeys le l).Nodup :=
  (List.perm_insertionSort _ _).nodup_iff.2 (List.nodup_dedup l)

/-! ### The first table -/

theorem calls_ne (f : Forest) : ∀ c ∈ f.calls, c.1 ≠ [] := by
  induction f with
  | nil => intro c h; exact absurd h (List.not_mem_nil)
  | node kd n ti te kids next ihk ihn =>
    intro c h
    simp only [Forest.calls, List.mem_append, List.mem_map, List.mem_cons] at h
    rcases h with ⟨d, _, rfl⟩ | rfl | h
    · simp
    · simp
    · exact ihn c h

theorem outer_node (kd : Kind) (n : String) (ti te : Int) (kids next : Forest) :
    outer (.node kd n ti te kids next) = ([n], ((te - ti : Int) : Rat)) :: outer next := by
  unfold outer
  simp only [Forest.calls, List.filter_append]
  have e : (kids.calls.map (fun c => (n :: c.1, c.2))).filter (fun c => decide (c.1.length = 1)) = [] := by
    rw [List.filter_eq_nil_iff]
    intro c hc
    obtain ⟨d, hd, rfl⟩ := List.mem_map.1 hc
    have := List.length_pos_iff.2 (calls_ne _ d hd)
    simp only [List.length_cons, decide_eq_true_eq]
    omega
  rw [e, List.nil_append, List.filter_cons_of_pos (by simp)]

/-- the selected records -/
theorem sel_node {kd n ti te kids next} (hf : Plain (.node kd n ti te kids next)) :
    (recs (.node kd n ti te kids next) []).filter (fun r => layer r.name = 1) =
      (if kd = .solver then [⟨pathText [n], true, none⟩] else []) ++
        ⟨pathText [n], false, some ((te - ti : Int) : Rat)⟩ :: (recs next []).filter (fun r => layer r.name = 1) := by
  have hn : ∀ m ∈ [n], '/' ∉ m.toList := by
    intro m hm; rw [List.mem_singleton.1 hm]; exact hf.name
  have hl : layer (pathText [n]) = 1 := layer_path hn
  rw [recs_node, List.filter_append, List.filter_append, List.nil_append]
  have e : (recs kids [n]).filter (fun r => decide (layer r.name = 1)) = [] := by
    rw [List.filter_eq_nil_iff]
    intro r hr
    have := recs_layer hf.kids (path := [n]) hn hr
    simp only [List.length_singleton] at this
    simp only [decide_eq_true_eq]
    omega
  rw [e, List.append_nil, List.filter_cons_of_pos (by simp [hl])]
  congr 1
  split
  · rw [List.filter_cons_of_pos (by simp [hl])]; rfl
  · rfl

theorem pathText_single {n m : String} (hn : '/' ∉ n.toList) (hm : '/' ∉ m.toList) :
    pathText [n] = pathText [m] ↔ n = m := by
  constructor
  · intro h
    have := pathText_inj (p := [n]) (q := [m]) (by simpa using hn) (by simpa using hm) h
    simpa using this
  · rintro rfl; rfl

theorem outer_plain {f : Forest} (hf : Plain f) : ∀ c ∈ outer f, ∃ m, c.1 = [m] ∧ '/' ∉ m.toList := by
  induction f with
  | nil => intro c h; exact absurd h (List.not_mem_nil)
  | node kd n ti te kids next _ ihn =>
    intro c h
    rw [outer_node] at h
    rcases List.mem_cons.1 h with rfl | h
    · exact ⟨n, rfl, hf.name⟩
    · exact ihn hf.next c h

theorem sel_names {f : Forest} (hf : Plain f) (x : List Char) :
    x ∈ ((recs f []).filter (fun r => layer r.name = 1)).map (·.name) ↔ ∃ c ∈ outer f, x = pathText c.1 := by
  induction f with
  | nil => constructor
           · intro h; exact absurd h (List.not_mem_nil)
           · rintro ⟨c, h, _⟩; exact absurd h (List.not_mem_nil)
  | node kd n ti te kids next _ ihn =>
    rw [sel_node hf, outer_node, List.map_append, List.mem_append, List.map_cons, List.mem_cons, ihn hf.next]
    have e : x ∈ List.map (fun r : Rec => r.name) (if kd = Kind.solver then [⟨pathText [n], true, none⟩] else []) →
        x = pathText [n] := by
      split
      · intro h; simpa using h
      · intro h; exact absurd h (List.not_mem_nil)
    constructor
    · rintro (h | h | ⟨c, h, h'⟩)
      · exact ⟨_, List.mem_cons_self, e h⟩
      · exact ⟨_, List.mem_cons_self, h⟩
      · exact ⟨c, List.mem_cons_of_mem _ h, h'⟩
    · rintro ⟨c, h, h'⟩
      rcases List.mem_cons.1 h with rfl | h
      · exact Or.inr (Or.inl h')
      · exact Or.inr (Or.inr ⟨c, h, h'⟩)

theorem sel_col {f : Forest} (hf : Plain f) {m : String} (hm : '/' ∉ m.toList) :
    ((((recs f []).filter (fun r => layer r.name = 1)).filter (fun r => r.name = pathText [m])).map
      (·.time)).filterMap id = ((outer f).filter (fun c => c.1 = [m])).map (·.2) := by
  induction f with
  | nil => rfl
  | node kd n ti te kids next _ ihn =>
    rw [sel_node hf, outer_node, List.filter_append, List.map_append, List.filterMap_append]
    have e : (((if kd = Kind.solver then [(⟨pathText [n], true, none⟩ : Rec)] else []).filter
        (fun r => decide (r.name = pathText [m]))).map (·.time)).filterMap id = [] := by
      split
      · by_cases h : pathText [n] = pathText [m]
        · rw [List.filter_cons_of_pos (by simp [h])]; rfl
        · rw [List.filter_cons_of_neg (by simp [h])]; rfl
      · rfl
    rw [e, List.nil_append]
    by_cases h : n = m
    · subst h
      rw [List.filter_cons_of_pos (by simp), List.filter_cons_of_pos (by simp), List.map_cons, List.map_cons,
        List.filterMap_cons, ihn hf.next]
      rfl
    · rw [List.filter_cons_of_neg (by simpa using fun h' => h ((pathText_single hf.name hm).1 h')),
        List.filter_cons_of_neg (by simpa using h), ihn hf.next]

theorem recs_ne {f : Forest} (h : f ≠ .nil) (path : List String) : recs f path ≠ [] := by
  cases f with
  | nil => exact absurd rfl h
  | node kd n ti te kids next => rw [recs_node]; simp

/-- **C101, first table**: for every execution (forest of calls) in which at least one call is logged, the first
table has exactly one row for every name of an outermost logged call: the name, the sum of the durations of the
outermost calls of this name, and their number. -/
theorem C101_layer1 (F : Forest) (level : Nat) (hF : Plain F) (hne : F.prune level ≠ .nil) :
    ∃ T, layer1 ((F.lines level []).map recOf) = .ok T ∧ (T.map (·.name)).Nodup ∧
      ∀ r, r ∈ T ↔ ∃ n, [n] ∈ paths (outer (F.prune level)) ∧
        r = ⟨pathText [n], 1, total (outer (F.prune level)) [n], times (outer (F.prune level)) [n]⟩ := by
  rw [lines_prune]
  have hP : Plain (F.prune level) := fun n hn => hF n (prune_names level F n hn)
  generalize F.prune level = P at *
  have hr : (P.lines 3 []).map recOf = recs P [] := rfl
  rw [hr]
  unfold layer1
  rw [if_neg (recs_ne hne [])]
  refine ⟨_, rfl, ?_, ?_⟩
  · rw [List.map_map]
    have : ((fun x : Row1 => x.name) ∘ fun n => (⟨n, layer n,
        colSum ((((recs P []).filter (fun r => decide (layer r.name = 1))).filter (fun r => decide (r.name = n))).map
          (fun x => x.time)),
        colCount ((((recs P []).filter (fun r => decide (layer r.name = 1))).filter (fun r => decide (r.name = n))).map
          (fun x => x.time))⟩ : Row1)) = id := rfl
    rw [this, List.map_id]
    exact nodup_groupKeys _ _
  · intro r
    rw [List.mem_map]
    have key : ∀ n, '/' ∉ n.toList →
        (⟨pathText [n], layer (pathText [n]),
          colSum ((((recs P []).filter (fun r => decide (layer r.name = 1))).filter
            (fun r => decide (r.name = pathText [n]))).map (fun x => x.time)),
          colCount ((((recs P []).filter (fun r => decide (layer r.name = 1))).filter
            (fun r => decide (r.name = pathText [n]))).map (fun x => x.time))⟩ : Row1) =
        ⟨pathText [n], 1, total (outer P) [n], times (outer P) [n]⟩ := by
      intro n hn
      have h1 := sel_col hP hn
      unfold colSum colCount total times
      rw [h1, List.length_map, layer_path (p := [n]) (by simpa using hn)]
      rfl
    constructor
    · rintro ⟨x, hx, rfl⟩
      rw [mem_groupKeys, sel_names hP] at hx
      obtain ⟨c, hc, rfl⟩ := hx
      obtain ⟨m, hm, hm'⟩ := outer_plain hP c hc
      rw [hm]
      refine ⟨m, ?_, key m hm'⟩
      rw [← hm]
      exact List.mem_map_of_mem hc
    · rintro ⟨n, hn, rfl⟩
      obtain ⟨c, hc, hcn⟩ := List.mem_map.1 hn
      obtain ⟨m, hm, hm'⟩ := outer_plain hP c hc
      have hnm : n = m := by rw [hm] at hcn; simpa using hcn.symm
      subst hnm
      refine ⟨pathText [n], ?_, key n hm'⟩
      rw [mem_groupKeys, sel_names hP]
      exact ⟨c, hc, by rw [hm]⟩

end Verif.Viewer
