import Verif.Props.Sor
import Verif.Spec.LobpcgSpec
import Verif.Lemmas.LobpcgBlock

/-! The SOR preconditioner makes no numbers out of infinities or NaN. -/

namespace Verif.Solver

open Spec

variable {α : Type}

theorem forFrom_keep {σ : Type} {body : Nat → σ → Res σ} (P : Nat → σ → Prop)
    (hstep : ∀ i s s', P i s → body i s = .ok s' → P (i + 1) s') : ∀ (n lo : Nat) (s s' : σ), P lo s →
    forFrom lo n body s = .ok s' → P (lo + n) s' := by
  intro n
  induction n with
  | zero => intro lo s s' h e; cases e; exact h
  | succ n ih =>
    intro lo s s' h e
    rw [forFrom_succ] at e
    obtain ⟨s1, h1, e⟩ := Res.bind_eq_ok.mp e
    have := ih (lo + 1) s1 s' (hstep _ _ _ h h1) e
    rwa [Nat.add_assoc, Nat.add_comm 1 n] at this

theorem forDown_keep {σ : Type} {body : Nat → σ → Res σ} (P : σ → Prop)
    (hstep : ∀ i s s', P s → body i s = .ok s' → P s') : ∀ (n : Nat) (s s' : σ), P s →
    forDown n body s = .ok s' → P s' := by
  intro n
  induction n with
  | zero => intro s s' h e; cases e; exact h
  | succ n ih =>
    intro s s' h e
    unfold forDown at e
    obtain ⟨s1, h1, e⟩ := Res.bind_eq_ok.mp e
    exact ih s1 s' (hstep _ _ _ h h1) e

section

variable {N : Num α} {A : Crs α} {D : List α} (Bad : α → Prop) (hsub : ∀ a b, Bad a → Bad (N.sub a b))
  (hmul : ∀ (i : Nat) (d a : α), D[i]? = some d → Bad a → Bad (N.mul a d))

include hsub hmul in
/-- what is bad in the right-hand side is bad after the forward substitution -/
theorem crsForward_keeps {x b y : List α} (h : crsForward N A D x b = .ok y) :
    y.length = x.length ∧ ∀ (j : Nat) (a : α), j < A.rowN → b[j]? = some a → Bad a → ∃ a', y[j]? = some a' ∧ Bad a' := by
  unfold crsForward forN at h
  have := forFrom_keep (P := fun i (z : List α) => z.length = x.length ∧
    ∀ (j : Nat) (a : α), j < i → b[j]? = some a → Bad a → ∃ a', z[j]? = some a' ∧ Bad a') ?_ _ _ _ _ ⟨rfl, by intro j a hj; omega⟩ h
  · rwa [Nat.zero_add] at this
  · rintro i z z' ⟨hl, hz⟩ hb
    obtain ⟨b0, hb0, hb⟩ := Res.bind_eq_ok.mp hb
    obtain ⟨tmp, htmp, hb⟩ := Res.bind_eq_ok.mp hb
    obtain ⟨d, hd, hb⟩ := Res.bind_eq_ok.mp hb
    obtain ⟨lo, -, htmp⟩ := Res.bind_eq_ok.mp htmp
    obtain ⟨hi, -, htmp⟩ := Res.bind_eq_ok.mp htmp
    obtain ⟨hlt, hz'⟩ := Verif.wr_eq_ok.mp hb
    subst hz'
    refine ⟨by simpa using hl, ?_⟩
    intro j a hj ha hbad
    by_cases hij : j = i
    · subst hij
      refine ⟨_, List.getElem?_set_self hlt, ?_⟩
      rw [rd_eq_ok.mp hb0] at ha
      cases ha
      refine hmul _ _ _ (rd_eq_ok.mp hd) ?_
      unfold forRange at htmp
      refine forFrom_keep (P := fun _ t => Bad t) ?_ _ _ _ _ hbad htmp
      intro k t t' ht hk
      obtain ⟨c, -, hk⟩ := Res.bind_eq_ok.mp hk
      split at hk
      · obtain ⟨v, -, hk⟩ := Res.bind_eq_ok.mp hk
        obtain ⟨xv, -, hk⟩ := Res.bind_eq_ok.mp hk
        cases hk
        exact hsub _ _ ht
      · cases hk; exact ht
    · rw [List.getElem?_set_ne (by omega)]
      exact hz j a (by omega) ha hbad

include hsub in
/-- what is bad before the backward substitution is bad after it -/
theorem crsBackward_keeps {x y : List α} (h : crsBackward N A D x = .ok y) :
    y.length = x.length ∧ ∀ (j : Nat) (a : α), x[j]? = some a → Bad a → ∃ a', y[j]? = some a' ∧ Bad a' := by
  unfold crsBackward at h
  refine forDown_keep (P := fun (z : List α) => z.length = x.length ∧
    ∀ (j : Nat) (a : α), x[j]? = some a → Bad a → ∃ a', z[j]? = some a' ∧ Bad a') ?_ _ _ _ ⟨rfl, fun j a ha hb => ⟨a, ha, hb⟩⟩ h
  rintro i z z' ⟨hl, hz⟩ hb
  obtain ⟨tmp, htmp, hb⟩ := Res.bind_eq_ok.mp hb
  obtain ⟨d, hd, hb⟩ := Res.bind_eq_ok.mp hb
  obtain ⟨xi, hxi, hb⟩ := Res.bind_eq_ok.mp hb
  obtain ⟨hlt, hz'⟩ := Verif.wr_eq_ok.mp hb
  subst hz'
  refine ⟨by simpa using hl, ?_⟩
  intro j a ha hbad
  obtain ⟨a', ha', hbad'⟩ := hz j a ha hbad
  by_cases hij : j = i
  · subst hij
    rw [rd_eq_ok.mp hxi] at ha'
    cases ha'
    exact ⟨_, List.getElem?_set_self hlt, hsub _ _ hbad'⟩
  · rw [List.getElem?_set_ne (by omega)]
    exact ⟨a', ha', hbad'⟩

include hsub hmul in
theorem crsPrecond_keeps {x b y : List α} (h : crsPrecond N A D x b = .ok y) :
    y.length = x.length ∧ ∀ (j : Nat) (a : α), j < A.rowN → b[j]? = some a → Bad a → ∃ a', y[j]? = some a' ∧ Bad a' := by
  unfold crsPrecond at h
  obtain ⟨z, hz, h⟩ := Res.bind_eq_ok.mp h
  obtain ⟨l1, k1⟩ := crsForward_keeps Bad hsub hmul hz
  obtain ⟨l2, k2⟩ := crsBackward_keeps Bad hsub h
  refine ⟨l2.trans l1, fun j a hj ha hb => ?_⟩
  obtain ⟨a', ha', hb'⟩ := k1 j a hj ha hb
  exact k2 j a' ha' hb'

end

end Verif.Solver
