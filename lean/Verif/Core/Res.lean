/-
Execution framework: outcomes of C++ fragments, buffer access, counted loops,
and the total-correctness predicate used by every theorem.
-/

namespace Verif

universe u v w

/-- Outcome of running a fragment of C++ code. -/
inductive Res (α : Type u) : Type u where
  /-- normal completion with a value -/
  | ok (a : α)
  /-- a C++ exception (`throw std::runtime_error`) -/
  | throw (msg : String)
  /-- a failed `assert` -/
  | abort (msg : String)
  /-- undefined behaviour (out-of-bounds access, pop of an empty stack, ...) -/
  | ub (msg : String)
  deriving DecidableEq, Repr

namespace Res

variable {α : Type u} {β : Type v}

/-- sequencing: any abnormal outcome ends the fragment -/
def bind (r : Res α) (f : α → Res β) : Res β :=
  match r with
  | .ok a => f a
  | .throw m => .throw m
  | .abort m => .abort m
  | .ub m => .ub m

instance : Monad Res where
  pure := .ok
  bind := Res.bind

@[simp] theorem pure_eq (a : α) : (pure a : Res α) = .ok a := rfl
@[simp] theorem bind_ok (a : α) (f : α → Res β) : Res.bind (.ok a) f = f a := rfl
@[simp] theorem ok_bind {α β : Type u} (a : α) (f : α → Res β) : (Res.ok a >>= f) = f a := rfl
@[simp] theorem throw_bind {α β : Type u} (m) (f : α → Res β) :
    ((Res.throw m : Res α) >>= f) = .throw m := rfl
@[simp] theorem abort_bind {α β : Type u} (m) (f : α → Res β) :
    ((Res.abort m : Res α) >>= f) = .abort m := rfl
@[simp] theorem ub_bind {α β : Type u} (m) (f : α → Res β) :
    ((Res.ub m : Res α) >>= f) = .ub m := rfl

/-- Total correctness: the fragment completes normally with a value satisfying `P`
(no exception, no failed assertion, no undefined behaviour). -/
def Sat (r : Res α) (P : α → Prop) : Prop := ∃ a, r = .ok a ∧ P a

theorem Sat.ok {P : α → Prop} {a : α} (h : P a) : Sat (.ok a) P := ⟨a, rfl, h⟩

theorem Sat.pure {P : α → Prop} {a : α} (h : P a) : Sat (Pure.pure a : Res α) P := ⟨a, rfl, h⟩

@[simp] theorem sat_ok {P : α → Prop} {a : α} : Sat (.ok a) P ↔ P a :=
  ⟨fun ⟨_, h, hp⟩ => by cases h; exact hp, fun h => ⟨a, rfl, h⟩⟩

theorem Sat.mono {P Q : α → Prop} {r : Res α} (h : Sat r P) (hpq : ∀ a, P a → Q a) : Sat r Q := by
  obtain ⟨a, rfl, hp⟩ := h; exact ⟨a, rfl, hpq a hp⟩

theorem Sat.bind {α β : Type u} {P : α → Prop} {Q : β → Prop} {r : Res α} {f : α → Res β}
    (h : Sat r P) (hf : ∀ a, P a → Sat (f a) Q) : Sat (r >>= f) Q := by
  obtain ⟨a, rfl, hp⟩ := h; exact hf a hp

theorem Sat.and {P Q : α → Prop} {r : Res α} (h : Sat r P) (h' : Sat r Q) :
    Sat r (fun a => P a ∧ Q a) := by
  obtain ⟨a, rfl, hp⟩ := h
  obtain ⟨b, hb, hq⟩ := h'
  cases hb; exact ⟨a, rfl, hp, hq⟩

end Res

/-- C++ `assert(c)` -/
def cassert (c : Bool) (msg : String := "assert") : Res Unit := if c then .ok () else .abort msg

@[simp] theorem cassert_true (m) : cassert true m = .ok () := rfl
theorem cassert_of {c : Bool} {m} (h : c = true) : cassert c m = .ok () := by subst h; rfl

theorem cassert_decide {p : Prop} [Decidable p] {m} (h : p) : cassert (decide p) m = .ok () := by
  simp [cassert, h]

/-- read `buf[i]`; undefined behaviour out of bounds -/
def rd {α : Type u} (l : List α) (i : Nat) : Res α :=
  match l[i]? with
  | some a => .ok a
  | none => .ub "read out of bounds"

/-- write `buf[i] = a`; undefined behaviour out of bounds -/
def wr {α : Type u} (l : List α) (i : Nat) (a : α) : Res (List α) :=
  if i < l.length then .ok (l.set i a) else .ub "write out of bounds"

theorem rd_ok {α : Type u} {l : List α} {i : Nat} (h : i < l.length) : rd l i = .ok l[i] := by
  simp [rd, h]

theorem rd_of_getElem? {α : Type u} {l : List α} {i : Nat} {a : α} (h : l[i]? = some a) :
    rd l i = .ok a := by simp [rd, h]

theorem wr_ok {α : Type u} {l : List α} {i : Nat} {a : α} (h : i < l.length) :
    wr l i a = .ok (l.set i a) := by simp [wr, h]

theorem rd_ub {α : Type u} {l : List α} {i : Nat} (h : l.length ≤ i) :
    rd l i = .ub "read out of bounds" := by
  simp [rd, List.getElem?_eq_none h]

theorem rd_eq_ok {α : Type u} {l : List α} {i : Nat} {a : α} : rd l i = .ok a ↔ l[i]? = some a := by
  unfold rd; split <;> simp_all

theorem wr_eq_ok {α : Type u} {l l' : List α} {i : Nat} {a : α} :
    wr l i a = .ok l' ↔ i < l.length ∧ l' = l.set i a := by
  unfold wr
  by_cases h : i < l.length
  · simp [h, eq_comm]
  · simp [h]

theorem Res.bind_eq_ok {α β : Type u} {r : Res α} {f : α → Res β} {b : β} :
    (r >>= f) = .ok b ↔ ∃ a, r = .ok a ∧ f a = .ok b := by
  cases r <;> simp

/-- the counted loop `for (i = lo; i < lo + n; ++i) s = body(i, s)` -/
def forFrom {σ : Type u} (lo : Nat) : (n : Nat) → (body : Nat → σ → Res σ) → σ → Res σ
  | 0, _, s => .ok s
  | n + 1, body, s => body lo s >>= fun s' => forFrom (lo + 1) n body s'

/-- the counted loop `for (i = 0; i < n; ++i) s = body(i, s)` -/
def forN {σ : Type u} (n : Nat) (body : Nat → σ → Res σ) (s : σ) : Res σ := forFrom 0 n body s

/-- the counted loop `for (i = lo; i < hi; ++i) s = body(i, s)` (no iteration if `hi ≤ lo`) -/
def forRange {σ : Type u} (lo hi : Nat) (body : Nat → σ → Res σ) (s : σ) : Res σ :=
  forFrom lo (hi - lo) body s

/-- Loop rule (total correctness). -/
theorem forFrom_sat {σ : Type u} {lo n : Nat} {body : Nat → σ → Res σ} {s : σ}
    (P : Nat → σ → Prop) (h0 : P lo s)
    (hstep : ∀ i s, lo ≤ i → i < lo + n → P i s → (body i s).Sat (P (i + 1))) :
    (forFrom lo n body s).Sat (P (lo + n)) := by
  induction n generalizing lo s with
  | zero => exact ⟨s, rfl, h0⟩
  | succ n ih =>
    simp only [forFrom]
    refine Res.Sat.bind (hstep lo s (Nat.le_refl _) (by omega) h0) ?_
    intro s' hs'
    have := ih (lo := lo + 1) hs' (fun i s h1 h2 hp => hstep i s (by omega) (by omega) hp)
    have e : lo + 1 + n = lo + (n + 1) := by omega
    rwa [e] at this

theorem forN_sat {σ : Type u} {n : Nat} {body : Nat → σ → Res σ} {s : σ}
    (P : Nat → σ → Prop) (h0 : P 0 s)
    (hstep : ∀ i s, i < n → P i s → (body i s).Sat (P (i + 1))) :
    (forN n body s).Sat (P n) := by
  have := forFrom_sat (lo := 0) (n := n) P h0 (fun i s _ h2 hp => hstep i s (by omega) hp)
  simpa [forN] using this

theorem forRange_sat {σ : Type u} {lo hi : Nat} {body : Nat → σ → Res σ} {s : σ}
    (P : Nat → σ → Prop) (hle : lo ≤ hi) (h0 : P lo s)
    (hstep : ∀ i s, lo ≤ i → i < hi → P i s → (body i s).Sat (P (i + 1))) :
    (forRange lo hi body s).Sat (P hi) := by
  have := forFrom_sat (lo := lo) (n := hi - lo) P h0
    (fun i s h1 h2 hp => hstep i s h1 (by omega) hp)
  have e : lo + (hi - lo) = hi := by omega
  rwa [e] at this

theorem forRange_empty {σ : Type u} {lo hi : Nat} (body : Nat → σ → Res σ) (s : σ)
    (h : hi ≤ lo) : forRange lo hi body s = .ok s := by
  have : hi - lo = 0 := by omega
  simp [forRange, this, forFrom]

theorem forFrom_succ {σ : Type u} {lo n : Nat} (body : Nat → σ → Res σ) (s : σ) :
    forFrom lo (n + 1) body s = body lo s >>= fun s' => forFrom (lo + 1) n body s' := rfl

@[simp] theorem forFrom_zero {σ : Type u} {lo : Nat} (body : Nat → σ → Res σ) (s : σ) :
    forFrom lo 0 body s = .ok s := rfl

@[simp] theorem forN_zero {σ : Type u} (body : Nat → σ → Res σ) (s : σ) :
    forN 0 body s = .ok s := rfl

/-- A loop whose body always completes normally is a fold. -/
theorem forFrom_eq_foldl {σ : Type u} {lo n : Nat} {body : Nat → σ → Res σ} {g : σ → Nat → σ}
    (hb : ∀ i s, lo ≤ i → i < lo + n → body i s = .ok (g s i)) (s : σ) :
    forFrom lo n body s = .ok ((List.range' lo n).foldl g s) := by
  induction n generalizing lo s with
  | zero => rfl
  | succ n ih =>
    rw [forFrom_succ, hb lo s (Nat.le_refl _) (by omega), Res.ok_bind,
      ih (fun i s h1 h2 => hb i s (by omega) (by omega))]
    simp [List.range'_succ]

/-- Splitting a loop. -/
theorem forFrom_add {σ : Type u} (lo m n : Nat) (body : Nat → σ → Res σ) (s : σ) :
    forFrom lo (m + n) body s = forFrom lo m body s >>= fun s' => forFrom (lo + m) n body s' := by
  induction m generalizing lo s with
  | zero => simp
  | succ m ih =>
    have e : m + 1 + n = (m + n) + 1 := by omega
    rw [e, forFrom_succ, forFrom_succ]
    cases h : body lo s with
    | ok s' =>
      simp only [Res.ok_bind]
      rw [ih]
      have e2 : lo + 1 + m = lo + (m + 1) := by omega
      rw [e2]
    | throw m' => simp
    | abort m' => simp
    | ub m' => simp

end Verif
