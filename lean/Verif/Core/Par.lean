import Verif.Core.Res
import Mathlib.Data.List.ProdSigma
import Mathlib.Data.List.Nodup

/-!
`#pragma omp parallel for` loops whose iterations touch disjoint output elements: the iterations are
executed in an arbitrary order (the schedule is a permutation of the iteration space). That running
iterations one after the other in some order loses no behaviour for such loops is the data-race
freedom theorem of C24.
-/

namespace Verif

universe u

/-- run the iterations listed in `order`, one after the other -/
def forList {σ : Type u} {ι : Type} : (order : List ι) → (body : ι → σ → Res σ) → σ → Res σ
  | [], _, s => .ok s
  | i :: is, body, s => body i s >>= fun s' => forList is body s'

/-- `order` is an execution order of an `N`-iteration parallel loop -/
def Order (order : List Nat) (N : Nat) : Prop := List.Perm order (List.range N)

theorem Order.mem {order : List Nat} {N : Nat} (h : Order order N) {i : Nat} :
    i ∈ order ↔ i < N := by rw [List.Perm.mem_iff h, List.mem_range]

theorem Order.nodup {order : List Nat} {N : Nat} (h : Order order N) : order.Nodup :=
  (List.Perm.nodup_iff h).mpr List.nodup_range

theorem Order.range (N : Nat) : Order (List.range N) N := List.Perm.refl _

/-- A loop in which iteration `i` writes `f i`, a value that does not depend on what other iterations
wrote, to position `o + i`: the result is the same for every order. -/
theorem forList_write {α : Type u} (f : Nat → α) (o : Nat) (order : List Nat)
    {body : Nat → List α → Res (List α)} (s : List α)
    (hbody : ∀ i ∈ order, ∀ t : List α, t.length = s.length → body i t = wr t (o + i) (f i))
    (hb : ∀ i ∈ order, o + i < s.length) :
    ∃ r, forList order body s = .ok r ∧ r.length = s.length ∧
      ∀ k, r[k]? = if o ≤ k ∧ k - o ∈ order then some (f (k - o)) else s[k]? := by
  induction order generalizing s with
  | nil => exact ⟨s, rfl, rfl, by simp⟩
  | cons i is ih =>
    have hlt := hb i (by simp)
    obtain ⟨r, hr, hl, hk⟩ := ih (s.set (o + i) (f i))
      (fun j hj t ht => hbody j (by simp [hj]) t (by simpa using ht))
      (fun j hj => by simpa using hb j (by simp [hj]))
    refine ⟨r, ?_, by simpa using hl, ?_⟩
    · simp only [forList]
      rw [hbody i (by simp) s rfl, wr_ok hlt]
      exact hr
    · intro k
      rw [hk k, List.getElem?_set]
      by_cases h1 : o ≤ k
      · by_cases h2 : k - o ∈ is
        · rw [if_pos ⟨h1, h2⟩, if_pos ⟨h1, by simp [h2]⟩]
        · rw [if_neg (fun h => h2 h.2)]
          by_cases h3 : o + i = k
          · subst h3
            have e : o + i - o = i := by omega
            rw [if_pos rfl, if_pos hlt, e, if_pos ⟨h1, by simp⟩]
          · rw [if_neg h3, if_neg]
            rintro ⟨_, h4⟩
            rcases List.mem_cons.mp h4 with h4 | h4
            · omega
            · exact h2 h4
      · rw [if_neg (fun h => h1 h.1), if_neg (by omega), if_neg (fun h => h1 h.1)]

theorem forFrom_eq_forList {σ : Type u} (lo n : Nat) (body : Nat → σ → Res σ) (s : σ) :
    forFrom lo n body s = forList (List.range' lo n) body s := by
  induction n generalizing lo s with
  | zero => rfl
  | succ n ih =>
    rw [forFrom_succ, List.range'_succ]
    simp only [forList]
    congr 1
    funext s'
    exact ih (lo + 1) s'

/-- the sequential loop is the loop in increasing order -/
theorem forN_eq_forList {σ : Type u} (n : Nat) (body : Nat → σ → Res σ) (s : σ) :
    forN n body s = forList (List.range n) body s := by
  unfold forN
  rw [forFrom_eq_forList, List.range_eq_range']

theorem forList_append {σ : Type u} {ι : Type} (l l' : List ι) (body : ι → σ → Res σ) (s : σ) :
    forList (l ++ l') body s = forList l body s >>= fun s' => forList l' body s' := by
  induction l generalizing s with
  | nil => rfl
  | cons i is ih =>
    simp only [List.cons_append, forList]
    cases h : body i s with
    | ok s' => simp only [Res.ok_bind]; exact ih s'
    | throw m => rfl
    | abort m => rfl
    | ub m => rfl

theorem forList_map {σ : Type u} {ι κ : Type} (f : κ → ι) (l : List κ) (body : ι → σ → Res σ)
    (s : σ) : forList (l.map f) body s = forList l (fun k s => body (f k) s) s := by
  induction l generalizing s with
  | nil => rfl
  | cons i is ih =>
    simp only [List.map_cons, forList]
    congr 1
    funext s'
    exact ih s'

theorem forList_congr {σ : Type u} {ι : Type} {l : List ι} {body body' : ι → σ → Res σ} (s : σ)
    (h : ∀ i ∈ l, ∀ t, body i t = body' i t) : forList l body s = forList l body' s := by
  induction l generalizing s with
  | nil => rfl
  | cons i is ih =>
    simp only [forList]
    rw [h i (by simp) s]
    congr 1
    funext s'
    exact ih s' (fun j hj t => h j (by simp [hj]) t)

/-- nested loops are a loop over the pairs -/
theorem forList_product {σ : Type u} {ι κ : Type} (l : List ι) (l' : List κ)
    (body : ι → κ → σ → Res σ) (s : σ) :
    forList l (fun i s => forList l' (fun j s => body i j s) s) s =
      forList (l ×ˢ l') (fun p s => body p.1 p.2 s) s := by
  induction l generalizing s with
  | nil => rfl
  | cons i is ih =>
    rw [List.product_cons, forList_append, forList_map]
    simp only [forList]
    congr 1
    funext s'
    exact ih s'

/-- **Point updates.** Iteration `i` replaces the element at `g i`, reading at most its old value; the
positions are pairwise different. -/
theorem forList_points {α : Type u} {ι : Type} (l : List ι) (g : ι → Nat) (f : ι → α → α)
    (hnd : (l.map g).Nodup) {body : ι → List α → Res (List α)} (s : List α)
    (hl : ∀ i ∈ l, g i < s.length)
    (hbody : ∀ i (t : List α) u, i ∈ l → t.length = s.length → t[g i]? = some u →
      body i t = wr t (g i) (f i u)) :
    ∃ r, forList l body s = .ok r ∧ r.length = s.length ∧
      (∀ i u, i ∈ l → s[g i]? = some u → r[g i]? = some (f i u)) ∧
      (∀ k, (∀ i ∈ l, k ≠ g i) → r[k]? = s[k]?) := by
  have key : ∀ (l : List ι) (t : List α), (l.map g).Nodup → (∀ i ∈ l, g i < s.length) →
      (∀ i (t : List α) u, i ∈ l → t.length = s.length → t[g i]? = some u →
        body i t = wr t (g i) (f i u)) → t.length = s.length →
      ∃ r, forList l body t = .ok r ∧ r.length = s.length ∧
        (∀ i u, i ∈ l → t[g i]? = some u → r[g i]? = some (f i u)) ∧
        (∀ k, (∀ i ∈ l, k ≠ g i) → r[k]? = t[k]?) := by
    intro l
    induction l with
    | nil => intro t _ _ _ ht; exact ⟨t, rfl, ht, by simp, by simp⟩
    | cons i is ih =>
      intro t hnd hlt hb ht
      have hi := hlt i (by simp)
      rw [List.map_cons, List.nodup_cons] at hnd
      obtain ⟨hni, hnd'⟩ := hnd
      obtain ⟨r, hr, hrl, h1, h2⟩ := ih (t.set (g i) (f i (t[g i]'(by omega)))) hnd'
        (fun j hj => hlt j (by simp [hj])) (fun j t u hj => hb j t u (by simp [hj]))
        (by simpa using ht)
      refine ⟨r, ?_, hrl, ?_, ?_⟩
      · simp only [forList]
        rw [hb i t _ (by simp) ht (List.getElem?_eq_getElem (by omega)), wr_ok (by omega)]
        exact hr
      · intro j u hj hu
        rcases List.mem_cons.mp hj with rfl | hj
        · rw [h2 (g j) (fun i' hi' h => hni (h ▸ List.mem_map_of_mem hi'))]
          rw [List.getElem?_set, if_pos rfl, if_pos (by omega)]
          rw [List.getElem?_eq_getElem (by omega)] at hu
          injection hu with hu; rw [hu]
        · apply h1 j u hj
          rw [List.getElem?_set, if_neg]
          · exact hu
          · intro h; exact hni (h ▸ List.mem_map_of_mem hj)
      · intro k hk
        rw [h2 k (fun j hj => hk j (by simp [hj])), List.getElem?_set, if_neg]
        exact fun h => hk i (by simp) h.symm
  exact key l s hnd hl hbody rfl

/-- **Cell updates.** Every iteration transforms each cell by a function of that cell's value only
(the identity outside the region it owns): the loop composes these functions. -/
theorem forList_cells {α : Type u} {ι : Type} (l : List ι) (G : ι → Nat → α → α)
    {body : ι → List α → Res (List α)} (s : List α)
    (hbody : ∀ i (t : List α), i ∈ l → t.length = s.length →
      ∃ t', body i t = .ok t' ∧ t'.length = s.length ∧ ∀ k, t'[k]? = t[k]?.map (G i k)) :
    ∃ r, forList l body s = .ok r ∧ r.length = s.length ∧
      ∀ k, r[k]? = s[k]?.map (fun u => l.foldl (fun u i => G i k u) u) := by
  suffices key : ∀ (l : List ι) (t : List α), t.length = s.length →
      (∀ i (t : List α), i ∈ l → t.length = s.length →
        ∃ t', body i t = .ok t' ∧ t'.length = s.length ∧ ∀ k, t'[k]? = t[k]?.map (G i k)) →
      ∃ r, forList l body t = .ok r ∧ r.length = s.length ∧
        ∀ k, r[k]? = t[k]?.map (fun u => l.foldl (fun u i => G i k u) u) from
    key l s rfl hbody
  intro l
  induction l with
  | nil => intro t ht _; exact ⟨t, rfl, ht, by intro k; simp⟩
  | cons i is ih =>
    intro t ht hb
    obtain ⟨t', h1, h2, h3⟩ := hb i t (by simp) ht
    obtain ⟨r, hr, hl, hk⟩ := ih t' h2 (fun j t hj => hb j t (by simp [hj]))
    refine ⟨r, ?_, hl, ?_⟩
    · simp only [forList, h1, Res.ok_bind]; exact hr
    · intro k
      rw [hk, h3, Option.map_map]
      rfl

theorem foldl_id {α : Type u} {ι : Type} (l : List ι) (G : ι → α → α) (u : α)
    (h : ∀ j ∈ l, ∀ u, G j u = u) : l.foldl (fun u i => G i u) u = u := by
  induction l with
  | nil => rfl
  | cons i is ih =>
    rw [List.foldl_cons, h i (by simp), ih (fun j hj => h j (by simp [hj]))]

/-- when only iteration `i` touches a cell, the loop's effect on it is that of `i` -/
theorem foldl_single {α : Type u} {ι : Type} (l : List ι) (G : ι → α → α) (u : α) {i : ι}
    (hnd : l.Nodup) (hi : i ∈ l) (h : ∀ j ∈ l, j ≠ i → ∀ u, G j u = u) :
    l.foldl (fun u i => G i u) u = G i u := by
  induction l generalizing u with
  | nil => cases hi
  | cons j js ih =>
    rw [List.nodup_cons] at hnd
    rcases List.mem_cons.mp hi with rfl | hi'
    · rw [List.foldl_cons, foldl_id]
      intro k hk
      exact h k (by simp [hk]) (fun e => hnd.1 (e ▸ hk))
    · rw [List.foldl_cons, h j (by simp) (fun e => hnd.1 (e ▸ hi')),
        ih u hnd.2 hi' (fun k hk => h k (by simp [hk]))]

end Verif
