import Verif.Spec.ViewerSpec
import Mathlib.Tactic.Linarith
import Mathlib.Tactic.Ring

/-!
The text of paths, the numbering of the groups, the records of a complete log.
-/

namespace Verif.Viewer

open Log

/-! ### Text of paths -/

theorem split_cons {w : List Char} (hw : '/' ∉ w) (l : List Char) : split (w ++ '/' :: l) = w :: split l := by
  induction w with
  | nil => simp [split]
  | cons c w ih =>
    have hc : c ≠ '/' := fun h => hw (by simp [h])
    rw [List.cons_append, split, if_neg hc, ih (fun h => hw (List.mem_cons_of_mem _ h))]

theorem split_path {p : List String} (hp : ∀ n ∈ p, '/' ∉ n.toList) :
    split (pathText p) = p.map String.toList ++ [[]] := by
  induction p with
  | nil => rfl
  | cons n p ih =>
    show split ((n.toList ++ ['/']) ++ pathText p) = _
    rw [List.append_assoc, List.singleton_append, split_cons (hp n List.mem_cons_self),
      ih (fun m hm => hp m (List.mem_cons_of_mem _ hm))]
    rfl

theorem joinSlash_path (p : List String) : joinSlash (p.map String.toList ++ [[]]) = pathText p := by
  induction p with
  | nil => rfl
  | cons n p ih =>
    rw [List.map_cons, List.cons_append]
    have : ∀ w : List Char, ∀ ws : List (List Char), ws ≠ [] → joinSlash (w :: ws) = w ++ '/' :: joinSlash ws := by
      intro w ws h
      cases ws with
      | nil => exact absurd rfl h
      | cons v vs => rfl
    rw [this _ _ (by simp), ih]
    show _ = (n.toList ++ ['/']) ++ pathText p
    simp

theorem pathText_inj {p q : List String} (hp : ∀ n ∈ p, '/' ∉ n.toList) (hq : ∀ n ∈ q, '/' ∉ n.toList)
    (h : pathText p = pathText q) : p = q := by
  have := congrArg split h
  rw [split_path hp, split_path hq] at this
  have := List.append_cancel_right this
  exact List.map_injective_iff.2 (fun a b h => String.toList_inj.1 h) this

theorem layer_path {p : List String} (hp : ∀ n ∈ p, '/' ∉ n.toList) : layer (pathText p) = p.length := by
  induction p with
  | nil => rfl
  | cons n p ih =>
    show List.count '/' ((n.toList ++ ['/']) ++ pathText p) = _
    rw [List.count_append, List.count_append, List.count_eq_zero.2 (hp n List.mem_cons_self)]
    have := ih (fun m hm => hp m (List.mem_cons_of_mem _ hm))
    unfold layer at this
    rw [this]
    simp [Nat.add_comm]

theorem parent_path {p : List String} (hp : ∀ n ∈ p, '/' ∉ n.toList) :
    parentOf (pathText p) = pathText p.dropLast := by
  unfold parentOf
  rw [split_path hp, List.dropLast_concat, ← List.map_dropLast, joinSlash_path]

theorem contains_iff (w l : List Char) : contains w l = true ↔ w <:+: l := by
  induction l with
  | nil =>
    unfold contains
    rw [List.isPrefixOf_iff_prefix, List.prefix_nil, List.infix_nil]
  | cons c l ih =>
    unfold contains
    rw [Bool.or_eq_true, List.isPrefixOf_iff_prefix, ih, List.infix_cons_iff]

/-! ### Numbering -/

theorem labels_append {k : Nat} {pre rest : List Rec} {fin : Rec}
    (hp : ∀ r ∈ pre, ¬(layer r.name = 1 ∧ r.isIn = false)) (hf : layer fin.name = 1 ∧ fin.isIn = false) :
    labels k (pre ++ fin :: rest) = List.replicate pre.length none ++ some (k + 1) :: labels (k + 1) rest := by
  induction pre with
  | nil => show labels k (fin :: rest) = _; rw [labels, if_pos hf]; rfl
  | cons r pre ih =>
    rw [List.cons_append, labels, if_neg (hp r List.mem_cons_self),
      ih (fun r hr => hp r (List.mem_cons_of_mem _ hr))]
    rfl

theorem labels_none {k : Nat} {rows : List Rec} (hp : ∀ r ∈ rows, ¬(layer r.name = 1 ∧ r.isIn = false)) :
    labels k rows = List.replicate rows.length none := by
  induction rows with
  | nil => rfl
  | cons r rows ih =>
    rw [labels, if_neg (hp r List.mem_cons_self), ih (fun r hr => hp r (List.mem_cons_of_mem _ hr))]
    rfl

theorem bfill_replicate (n g : Nat) (l : List (Option Nat)) :
    bfill (List.replicate n none ++ some g :: l) = List.replicate (n + 1) (some g) ++ bfill l := by
  induction n with
  | zero => rfl
  | succ n ih =>
    rw [List.replicate_succ, List.cons_append, bfill, ih]
    simp [List.replicate_succ]

theorem bfill_none (n : Nat) : bfill (List.replicate n none) = List.replicate n none := by
  induction n with
  | zero => rfl
  | succ n ih =>
    rw [List.replicate_succ, bfill, ih]
    cases n <;> simp [List.replicate_succ]

/-- the grouping, from group `k + 1` on -/
def groupedFrom (k : Nat) (rows : List Rec) : List (Nat × Rec) :=
  ((bfill (labels k rows)).zip rows).filterMap (fun p =>
    match p.1 with
    | none => none
    | some g => if p.2.isIn then none else some (g, p.2))

theorem zip_replicate (g : Nat) (rows : List Rec) :
    ((List.replicate rows.length (some g)).zip rows).filterMap (fun p : Option Nat × Rec =>
      match p.1 with
      | none => none
      | some g => if p.2.isIn then none else some (g, p.2)) =
    (rows.filter (fun r => r.isIn = false)).map (fun r => (g, r)) := by
  induction rows with
  | nil => rfl
  | cons r rows ih =>
    rw [List.length_cons, List.replicate_succ, List.zip_cons_cons, List.filterMap_cons]
    dsimp only
    by_cases h : r.isIn
    · rw [if_pos h]
      simp only [h, Bool.true_eq_false, decide_false, Bool.false_eq_true, not_false_eq_true,
        List.filter_cons_of_neg]
      exact ih
    · rw [if_neg h]
      have h' : r.isIn = false := by simpa using h
      simp only [h', decide_true, List.filter_cons_of_pos, List.map_cons]
      exact congrArg _ ih

theorem groupedFrom_append {k : Nat} {pre rest : List Rec} {fin : Rec}
    (hp : ∀ r ∈ pre, ¬(layer r.name = 1 ∧ r.isIn = false)) (hf : layer fin.name = 1 ∧ fin.isIn = false) :
    groupedFrom k (pre ++ fin :: rest) =
      ((pre ++ [fin]).filter (fun r => r.isIn = false)).map (fun r => (k + 1, r)) ++ groupedFrom (k + 1) rest := by
  unfold groupedFrom
  rw [labels_append hp hf, bfill_replicate]
  rw [show pre ++ fin :: rest = (pre ++ [fin]) ++ rest by simp]
  have hl : (List.replicate (pre.length + 1) (some (k + 1))).length = (pre ++ [fin]).length := by simp
  rw [List.zip_append hl, List.filterMap_append]
  rw [show pre.length + 1 = (pre ++ [fin]).length by simp, zip_replicate]

theorem groupedFrom_none {k : Nat} {rows : List Rec} (hp : ∀ r ∈ rows, ¬(layer r.name = 1 ∧ r.isIn = false)) :
    groupedFrom k rows = [] := by
  unfold groupedFrom
  rw [labels_none hp, bfill_none]
  rw [List.filterMap_eq_nil_iff]
  rintro ⟨a, b⟩ h
  have := (List.of_mem_zip h).1
  rw [List.mem_replicate] at this
  dsimp only
  rw [this.2]

/-! ### The records of a complete log -/

theorem names_append (f g : Forest) : (f.append g).names = f.names ++ g.names := by
  induction f with
  | nil => rfl
  | node k n ti te kids next _ ih => simp [Forest.append, Forest.names, ih]

theorem prune_names (level : Nat) (f : Forest) : ∀ n ∈ (f.prune level).names, n ∈ f.names := by
  induction f with
  | nil => intro n h; exact h
  | node k n ti te kids next ihk ihn =>
    intro m hm
    unfold Forest.prune at hm
    split at hm
    · simp only [Forest.names, List.mem_cons, List.mem_append] at hm ⊢
      rcases hm with h | h | h
      · exact Or.inl h
      · exact Or.inr (Or.inl (ihk m h))
      · exact Or.inr (Or.inr (ihn m h))
    · rw [names_append] at hm
      simp only [Forest.names, List.mem_cons, List.mem_append] at hm ⊢
      rcases hm with h | h
      · exact Or.inr (Or.inl (ihk m h))
      · exact Or.inr (Or.inr (ihn m h))

theorem logged3 (k : Kind) : Logged 3 k = true := by cases k <;> rfl

theorem lines_append (level : Nat) (path : List String) (f g : Forest) :
    (f.append g).lines level path = f.lines level path ++ g.lines level path := by
  induction f with
  | nil => rfl
  | node k n ti te kids next _ ih => simp [Forest.append, Forest.lines, ih]

/-- the log only depends on the logged calls -/
theorem lines_prune (level : Nat) (f : Forest) : ∀ path, f.lines level path = (f.prune level).lines 3 path := by
  induction f with
  | nil => intro path; rfl
  | node k n ti te kids next ihk ihn =>
    intro path
    unfold Forest.prune
    by_cases h : Logged level k = true
    · rw [if_pos h]
      simp only [Forest.lines, h, logged3, if_true, ihk, ihn]
    · rw [if_neg h, lines_append]
      simp only [Forest.lines, h, if_false, ihk, ihn]
      simp

/-- the records of a forest, at level 3 -/
def recs (f : Forest) (path : List String) : List Rec := (f.lines 3 path).map recOf

theorem recs_node (k : Kind) (n : String) (ti te : Int) (kids next : Forest) (path : List String) :
    recs (.node k n ti te kids next) path =
      ((if k = .solver then [⟨pathText (path ++ [n]), true, none⟩] else []) ++ recs kids (path ++ [n])) ++
        ⟨pathText (path ++ [n]), false, some ((te - ti : Int) : Rat)⟩ :: recs next path := by
  unfold recs
  simp only [Forest.lines, logged3, if_true, List.map_append, List.map_cons, List.map_nil]
  split
  · simp [recOf]
  · simp [recOf]

/-- record of a finished call -/
def done (path : List String) (c : List String × Rat) : Rec := ⟨pathText (path ++ c.1), false, some c.2⟩

theorem recs_done (f : Forest) : ∀ path, (recs f path).filter (fun r => r.isIn = false) = f.calls.map (done path) := by
  induction f with
  | nil => intro path; rfl
  | node k n ti te kids next ihk ihn =>
    intro path
    rw [recs_node, List.filter_append, List.filter_append, List.filter_cons_of_pos (by simp), ihk, ihn]
    have e : (List.filter (fun r : Rec => decide (r.isIn = false))
        (if k = Kind.solver then [⟨pathText (path ++ [n]), true, none⟩] else [])) = [] := by
      split <;> simp
    rw [e, List.nil_append]
    have e1 : done (path ++ [n]) = done path ∘ fun c => (n :: c.1, c.2) := by
      funext c
      simp [done]
    simp only [Forest.calls, List.map_append, List.map_cons, List.map_map, e1]
    rfl

theorem recs_shape (f : Forest) : ∀ path, ∀ r ∈ recs f path, ∃ q, q ≠ [] ∧ (∀ n ∈ q, n ∈ f.names) ∧
    r.name = pathText (path ++ q) ∧ (r.isIn = true → r.time = none) := by
  induction f with
  | nil => intro path r h; exact absurd h (List.not_mem_nil)
  | node k n ti te kids next ihk ihn =>
    intro path r h
    rw [recs_node] at h
    rcases List.mem_append.1 h with h | h
    · rcases List.mem_append.1 h with h | h
      · split at h
        · rw [List.mem_singleton.1 h]
          exact ⟨[n], by simp, by simp [Forest.names], rfl, fun _ => rfl⟩
        · exact absurd h (List.not_mem_nil)
      · obtain ⟨q, h1, h2, h3, h4⟩ := ihk _ r h
        refine ⟨n :: q, by simp, ?_, by rw [h3]; simp, h4⟩
        intro m hm
        rcases List.mem_cons.1 hm with rfl | hm
        · simp [Forest.names]
        · simp [Forest.names, h2 m hm]
    · rcases List.mem_cons.1 h with h | h
      · rw [h]
        exact ⟨[n], by simp, by simp [Forest.names], rfl, fun h => absurd h (by simp)⟩
      · obtain ⟨q, h1, h2, h3, h4⟩ := ihn _ r h
        exact ⟨q, h1, fun m hm => by simp [Forest.names, h2 m hm], h3, h4⟩

theorem recs_layer {f : Forest} (hf : Plain f) {path : List String} (hp : ∀ n ∈ path, '/' ∉ n.toList) {r : Rec}
    (h : r ∈ recs f path) : path.length < layer r.name := by
  obtain ⟨q, h1, h2, h3, _⟩ := recs_shape f path r h
  rw [h3, layer_path (by
    intro n hn
    rcases List.mem_append.1 hn with hn | hn
    · exact hp n hn
    · exact hf n (h2 n hn))]
  rw [List.length_append]
  have := List.length_pos_iff.2 h1
  omega

/-- the calls of a forest, with the number of the outermost call -/
def numbered (k : Nat) : Forest → List (Nat × (List String × Rat))
  | .nil => []
  | .node kd n ti te kids next =>
    ((Forest.node kd n ti te kids .nil).calls.map (fun c => (k + 1, c))) ++ numbered (k + 1) next

theorem Plain.kids {kd n ti te kids next} (h : Plain (.node kd n ti te kids next)) : Plain kids :=
  fun m hm => h m (by simp [Forest.names, hm])

theorem Plain.next {kd n ti te kids next} (h : Plain (.node kd n ti te kids next)) : Plain next :=
  fun m hm => h m (by simp [Forest.names, hm])

theorem Plain.name {kd n ti te kids next} (h : Plain (.node kd n ti te kids next)) : '/' ∉ n.toList :=
  h n (by simp [Forest.names])

/-- grouping a complete log: one group for every outermost call -/
theorem grouped_recs {f : Forest} (hf : Plain f) : ∀ k,
    groupedFrom k (recs f []) = (numbered k f).map (fun c => (c.1, done [] c.2)) := by
  induction f with
  | nil => intro k; rfl
  | node kd n ti te kids next _ ihn =>
    intro k
    have hn : ∀ m ∈ [n], '/' ∉ m.toList := by
      intro m hm; rw [List.mem_singleton.1 hm]; exact hf.name
    rw [recs_node, groupedFrom_append, ihn hf.next]
    · have hnum : numbered k (.node kd n ti te kids next) =
          ((Forest.node kd n ti te kids .nil).calls.map (fun c => (k + 1, c))) ++ numbered (k + 1) next := rfl
      rw [hnum, List.map_append]
      congr 1
      rw [List.filter_append, List.filter_append]
      have e : (List.filter (fun r : Rec => decide (r.isIn = false))
          (if kd = Kind.solver then [⟨pathText ([] ++ [n]), true, none⟩] else [])) = [] := by
        split <;> simp
      rw [e, List.nil_append, recs_done]
      simp [Forest.calls, done, Function.comp_def]
    · intro r hr
      rcases List.mem_append.1 hr with h | h
      · split at h
        · rw [List.mem_singleton.1 h]; simp
        · exact absurd h (List.not_mem_nil)
      · have := recs_layer hf.kids (path := [] ++ [n]) (by simpa using hn) h
        simp at this
        omega
    · refine ⟨?_, rfl⟩
      show layer (pathText ([] ++ [n])) = 1
      rw [List.nil_append, layer_path hn]
      rfl

end Verif.Viewer
