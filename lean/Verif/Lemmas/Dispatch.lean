import Verif.Spec.DispatchSpec
import Verif.Lemmas.Conc

/-!
Symbolic execution of one overload (which parameter is written, with which expression of the parameters,
over the size of which parameter, after which checks), and its soundness.
-/

namespace Verif.Dispatch

open Verif.Conc

variable {α : Type}

def Par.isObj : Par → Bool
  | .obj _ _ _ => true
  | .scal _ => false

def Arg.isObj : Arg α → Bool
  | .obj _ => true
  | .scal _ => false

def Arg.kval : Arg α → KVal α
  | .obj o => .ptr o.arr.off
  | .scal x => .num x

theorem Typed.length {ps : List Par} {args : List (Arg α)} (h : Typed ps args) :
    ps.length = args.length := by
  induction ps generalizing args with
  | nil => cases args with
    | nil => rfl
    | cons a as => exact h.elim
  | cons p ps ih => cases args with
    | nil => exact h.elim
    | cons a as => simp only [List.length_cons]; rw [ih h.2]

theorem Typed.get {ps : List Par} {args : List (Arg α)} (h : Typed ps args) {k : Nat} {p : Par}
    (hp : ps[k]? = some p) : ∃ a, args[k]? = some a ∧ p.takes a := by
  induction ps generalizing args k with
  | nil => simp at hp
  | cons q ps ih => cases args with
    | nil => exact h.elim
    | cons a as =>
      cases k with
      | zero =>
        simp only [List.getElem?_cons_zero, Option.some.injEq] at hp
        subst hp
        exact ⟨a, by simp, h.1⟩
      | succ k =>
        simp only [List.getElem?_cons_succ] at hp ⊢
        exact ih h.2 hp

theorem Typed.isObj {ps : List Par} {args : List (Arg α)} (h : Typed ps args) {k : Nat} {b : Bool}
    (hp : (ps.map Par.isObj)[k]? = some b) : ∃ a, args[k]? = some a ∧ a.isObj = b := by
  rw [List.getElem?_map] at hp
  cases hq : ps[k]? with
  | none => rw [hq] at hp; simp at hp
  | some p =>
    rw [hq] at hp
    simp only [Option.map_some, Option.some.injEq] at hp
    obtain ⟨a, ha, ht⟩ := h.get hq
    refine ⟨a, ha, ?_⟩
    rw [← hp]
    cases p <;> cases a <;> simp_all [Par.takes, Par.isObj, Arg.isObj]

theorem passOn_get {args as : List (Arg α)} {am : List Nat} (h : passOn args am = .ok as) (k : Nat) :
    as[k]? = (am[k]?).bind (fun j => args[j]?) := by
  induction am generalizing as k with
  | nil =>
    simp only [passOn, Res.ok.injEq] at h
    subst h; simp
  | cons j am ih =>
    simp only [passOn] at h
    cases hj : args[j]? with
    | none => rw [hj] at h; cases h
    | some a =>
      rw [hj] at h
      simp only at h
      obtain ⟨as', h1, h2⟩ := Res.bind_eq_ok.mp h
      simp only [Res.ok.injEq] at h2
      subst h2
      cases k with
      | zero => simp [hj]
      | succ k => simp only [List.getElem?_cons_succ]; exact ih h1 k

theorem passOn_ok {args : List (Arg α)} {am : List Nat} (h : ∀ j ∈ am, j < args.length) :
    ∃ as, passOn args am = .ok as := by
  induction am with
  | nil => exact ⟨[], rfl⟩
  | cons j am ih =>
    obtain ⟨as, has⟩ := ih (fun x hx => h x (List.mem_cons_of_mem _ hx))
    have hj := h j (by simp)
    refine ⟨args[j] :: as, ?_⟩
    simp only [passOn, List.getElem?_eq_getElem hj, has]
    rfl

/-- API parameter of a kernel argument -/
def KArg.api (P : List Bool) (am : List Nat) : KArg → Option Nat
  | .beg k =>
    match am[k]? with
    | some j => if P[j]? == some true then some j else none
    | none => none
  | .val k =>
    match am[k]? with
    | some j => if P[j]? == some false then some j else none
    | none => none

def argMap (P : List Bool) (am : List Nat) : List KArg → Option (List Nat)
  | [] => some []
  | k :: ks =>
    match k.api P am, argMap P am ks with
    | some j, some js => some (j :: js)
    | _, _ => none

/-- value passed for API parameter `j` -/
def kvAt (args : List (Arg α)) (j : Nat) : KVal α :=
  match args[j]? with
  | some a => a.kval
  | none => .ptr 0

theorem KArg.api_eval {ps : List Par} {args as : List (Arg α)} {am : List Nat} (hT : Typed ps args)
    (has : passOn args am = .ok as) {ka : KArg} {j : Nat} (h : ka.api (ps.map Par.isObj) am = some j) :
    ka.eval as = .ok (kvAt args j) ∧ (kvAt args j).isPtr = ((ps.map Par.isObj)[j]?).getD false := by
  cases ka with
  | beg k =>
    simp only [KArg.api] at h
    cases hk : am[k]? with
    | none => rw [hk] at h; simp at h
    | some j' =>
      rw [hk] at h
      simp only [Option.ite_none_right_eq_some, beq_iff_eq, Option.some.injEq] at h
      obtain ⟨h1, h2⟩ := h
      subst h2
      obtain ⟨a, ha, hb⟩ := hT.isObj h1
      cases a with
      | scal x => simp [Arg.isObj] at hb
      | obj o =>
        have : as[k]? = some (.obj o) := by rw [passOn_get has, hk]; exact ha
        refine ⟨?_, ?_⟩
        · simp only [KArg.eval, getObj, this, kvAt, ha, Arg.kval]; rfl
        · rw [h1]; simp [kvAt, ha, Arg.kval, KVal.isPtr]
  | val k =>
    simp only [KArg.api] at h
    cases hk : am[k]? with
    | none => rw [hk] at h; simp at h
    | some j' =>
      rw [hk] at h
      simp only [Option.ite_none_right_eq_some, beq_iff_eq, Option.some.injEq] at h
      obtain ⟨h1, h2⟩ := h
      subst h2
      obtain ⟨a, ha, hb⟩ := hT.isObj h1
      cases a with
      | obj o => simp [Arg.isObj] at hb
      | scal x =>
        have : as[k]? = some (.scal x) := by rw [passOn_get has, hk]; exact ha
        refine ⟨?_, ?_⟩
        · simp only [KArg.eval, this, kvAt, ha, Arg.kval]
        · rw [h1]; simp [kvAt, ha, Arg.kval, KVal.isPtr]

/-- the kinds of the kernel arguments -/
def kindsAt (P : List Bool) (m : List Nat) : List Bool := m.map (fun j => P[j]?.getD false)

theorem evalArgs_eq {ps : List Par} {args as : List (Arg α)} {am : List Nat} (hT : Typed ps args)
    (has : passOn args am = .ok as) {kas : List KArg} {m : List Nat}
    (h : argMap (ps.map Par.isObj) am kas = some m) :
    evalArgs as kas = .ok (m.map (kvAt args)) ∧
      (m.map (kvAt args)).map KVal.isPtr = kindsAt (ps.map Par.isObj) m := by
  induction kas generalizing m with
  | nil =>
    simp only [argMap, Option.some.injEq] at h
    subst h; exact ⟨rfl, rfl⟩
  | cons k kas ih =>
    simp only [argMap] at h
    cases h1 : k.api (ps.map Par.isObj) am with
    | none => rw [h1] at h; simp at h
    | some j =>
      cases h2 : argMap (ps.map Par.isObj) am kas with
      | none => rw [h1, h2] at h; simp at h
      | some js =>
        rw [h1, h2] at h
        simp only [Option.some.injEq] at h
        subst h
        obtain ⟨a1, a2⟩ := KArg.api_eval hT has h1
        obtain ⟨b1, b2⟩ := ih h2
        refine ⟨?_, ?_⟩
        · simp only [evalArgs, a1, b1, Res.ok_bind, List.map_cons]
        · simp only [List.map_cons, a2, b2, kindsAt]

/-- the expression over the parameters of the API -/
def Expr.subst (m : List Nat) : Expr → Expr
  | .el k => .el (m.getD k 0)
  | .sc k => .sc (m.getD k 0)
  | .lit z => .lit z
  | .un f e => .un f (e.subst m)
  | .bin op l r => .bin op (l.subst m) (r.subst m)

section Val

variable [IntCast α] [Add α] [Sub α] [Mul α] [Div α] [Max α] [Min α]

/-- value of an expression from the values of the parameters -/
def Expr.val (M : Cmath α) (v : Nat → α) : Expr → α
  | .el k => v k
  | .sc k => v k
  | .lit z => (z : α)
  | .un f e => M.fn f (e.val M v)
  | .bin op l r => op.eval M (l.val M v) (r.val M v)

theorem Expr.eval_eq (M : Cmath α) (num reg v : Nat → α) (e : Expr) (start : Nat)
    (kinds : List Bool) (hk : e.wellKinded kinds = true)
    (hnum : ∀ k, kinds[k]? = some false → num k = v k)
    (hreg : ∀ t p, e.reads[t]? = some p → kinds[p]? = some true → reg (start + t) = v p) :
    e.eval M num reg start = e.val M v := by
  induction e generalizing start with
  | el k =>
    simp only [Expr.wellKinded, beq_iff_eq] at hk
    exact hreg 0 k (by simp [Expr.reads]) hk
  | sc k =>
    simp only [Expr.wellKinded, beq_iff_eq] at hk
    exact hnum k hk
  | lit z => rfl
  | un f e ih =>
    simp only [Expr.eval, Expr.val]
    rw [ih start hk hreg]
  | bin op l r ihl ihr =>
    simp only [Expr.wellKinded, Bool.and_eq_true] at hk
    simp only [Expr.eval, Expr.val]
    rw [ihl start hk.1, ihr _ hk.2]
    · intro t p ht hp
      have := hreg (l.reads.length + t) p (by
        simp only [Expr.reads]
        rw [List.getElem?_append_right (by omega)]
        simpa using ht) hp
      rw [← this]; congr 1; omega
    · intro t p ht hp
      refine hreg t p ?_ hp
      simp only [Expr.reads]
      rw [List.getElem?_append_left (by
        rcases Nat.lt_or_ge t l.reads.length with h | h
        · exact h
        · rw [List.getElem?_eq_none h] at ht; simp at ht)]
      exact ht

theorem Expr.val_subst (M : Cmath α) (v : Nat → α) (m : List Nat) (e : Expr) :
    (e.subst m).val M v = e.val M (fun k => v (m.getD k 0)) := by
  induction e with
  | el k => rfl
  | sc k => rfl
  | lit z => rfl
  | un f e ih => simp only [Expr.subst, Expr.val, ih]
  | bin op l r ihl ihr => simp only [Expr.subst, Expr.val, ihl, ihr]

end Val

theorem Expr.reads_kinded {e : Expr} {kinds : List Bool} (h : e.wellKinded kinds = true) :
    ∀ p ∈ e.reads, kinds[p]? = some true := by
  induction e with
  | el k => simp only [Expr.reads, List.mem_singleton]; rintro p rfl; simpa [Expr.wellKinded] using h
  | sc k => simp [Expr.reads]
  | lit z => simp [Expr.reads]
  | un f e ih => exact ih h
  | bin op l r ihl ihr =>
    simp only [Expr.wellKinded, Bool.and_eq_true] at h
    simp only [Expr.reads, List.mem_append]
    rintro p (hp | hp)
    · exact ihl h.1 p hp
    · exact ihr h.2 p hp

/-- a check names containers only -/
def Check.ps : Check → List Nat
  | .sameSize ps => ps
  | .sameStructure ps => ps

def okRef (P : List Bool) (am : List Nat) (k : Nat) : Bool :=
  match am[k]? with
  | some j => P[j]? == some true
  | none => false

/-- the kernel run by the core -/
def theKernel (p : Prec) (kinds : List Bool) : Body → Option Kern
  | .own k => if k.prec = p then some k else none
  | .call name => resolve kernels name p kinds

/-- Symbolic execution: the parameter whose size counts the iterations, the parameter written and the
right-hand side, all in terms of the parameters of the overload. -/
def Overload.sym (mode : Mode) (o : Overload) : Option (Nat × Nat × Expr) :=
  let P := o.pars.map Par.isObj
  let c := o.coreDef
  if o.args.all (fun j => decide (j < P.length)) && c.checks.all (fun ch => ch.ps.all (okRef P o.args)) &&
      okRef P o.args c.n then
    match argMap P o.args c.args with
    | none => none
    | some m =>
      match theKernel (precOf o.pars) (kindsAt P m) c.body with
      | none => none
      | some k =>
        match (k.stmt mode).asLoop with
        | none => none
        | some (dst, e) =>
          if (decide (kindsAt P m = k.pars) && k.pars[dst]? == some true) && e.wellKinded k.pars then
            some (o.args.getD c.n 0, m.getD dst 0, e.subst m)
          else none
  else none

theorem getObj_ref {ps : List Par} {args as : List (Arg α)} {am : List Nat} (hT : Typed ps args)
    (has : passOn args am = .ok as) {k : Nat} (h : okRef (ps.map Par.isObj) am k = true) :
    ∃ o, getObj as k = .ok o ∧ args[am.getD k 0]? = some (.obj o) := by
  simp only [okRef] at h
  cases hk : am[k]? with
  | none => rw [hk] at h; simp at h
  | some j =>
    rw [hk] at h
    simp only [beq_iff_eq] at h
    obtain ⟨a, ha, hb⟩ := hT.isObj h
    cases a with
    | scal x => simp [Arg.isObj] at hb
    | obj o =>
      have : as[k]? = some (.obj o) := by rw [passOn_get has, hk]; exact ha
      refine ⟨o, by simp [getObj, this], ?_⟩
      rw [List.getD_eq_getElem?_getD, hk]; exact ha

theorem getObjs_ref {ps : List Par} {args as : List (Arg α)} {am : List Nat} (hT : Typed ps args)
    (has : passOn args am = .ok as) {ks : List Nat} (h : ks.all (okRef (ps.map Par.isObj) am) = true) :
    ∃ os, getObjs as ks = .ok os ∧ (∀ o ∈ os, Arg.obj o ∈ args) ∧
      (∀ k ∈ ks, ∃ o ∈ os, args[am.getD k 0]? = some (.obj o)) := by
  induction ks with
  | nil => exact ⟨[], rfl, by simp, by simp⟩
  | cons k ks ih =>
    simp only [List.all_cons, Bool.and_eq_true] at h
    obtain ⟨o, h1, h2⟩ := getObj_ref hT has h.1
    obtain ⟨os, q1, q2, q3⟩ := ih h.2
    refine ⟨o :: os, by simp only [getObjs, h1, q1, Res.ok_bind], ?_, ?_⟩
    · intro o' ho'
      rcases List.mem_cons.mp ho' with rfl | ho'
      · exact List.mem_of_getElem? h2
      · exact q2 o' ho'
    · intro k' hk'
      rcases List.mem_cons.mp hk' with rfl | hk'
      · exact ⟨o, by simp, h2⟩
      · obtain ⟨o', r1, r2⟩ := q3 k' hk'
        exact ⟨o', List.mem_cons_of_mem _ r1, r2⟩

theorem mem_objs {o : Obj} {args : List (Arg α)} : o ∈ objs args ↔ Arg.obj o ∈ args := by
  induction args with
  | nil => simp [objs]
  | cons a as ih => cases a <;> simp [objs, ih]

/-- the containers agree in everything the checks compare -/
theorem allSame_of {r : Obj → Obj → Bool} {os : List Obj} (h : ∀ a ∈ os, ∀ b ∈ os, r a b = true) :
    allSame r os = true := by
  cases os with
  | nil => rfl
  | cons o os =>
    simp only [allSame, List.all_eq_true]
    intro b hb
    exact h o (by simp) b (by simp [hb])

theorem runChecks_ok (H : Hash) {ps : List Par} {args as : List (Arg α)} {am : List Nat} (hT : Typed ps args)
    (has : passOn args am = .ok as) (hA : Alike (objs args))
    (hS : ∀ a ∈ objs args, ∀ b ∈ objs args, a.ty.sparse = b.ty.sparse) {cs : List Check}
    (h : cs.all (fun ch => ch.ps.all (okRef (ps.map Par.isObj) am)) = true) :
    runChecks H as cs = .ok () := by
  induction cs with
  | nil => rfl
  | cons c cs ih =>
    simp only [List.all_cons, Bool.and_eq_true] at h
    obtain ⟨os, q1, q2, _⟩ := getObjs_ref hT has h.1
    have hA' : ∀ a ∈ os, ∀ b ∈ os, a.shape = b.shape ∧ (a.ty.sparse = true → a.pattern = b.pattern) ∧
        a.ty.sparse = b.ty.sparse := fun a ha b hb =>
      ⟨(hA a (mem_objs.mpr (q2 a ha)) b (mem_objs.mpr (q2 b hb))).1,
        (hA a (mem_objs.mpr (q2 a ha)) b (mem_objs.mpr (q2 b hb))).2,
        hS a (mem_objs.mpr (q2 a ha)) b (mem_objs.mpr (q2 b hb))⟩
    have hc : c.run H as = .ok () := by
      cases c with
      | sameSize ks =>
        simp only [Check.ps] at q1
        simp only [Check.run, q1, Res.ok_bind]
        rw [allSame_of (fun a ha b hb => by simp [isSameSize, (hA' a ha b hb).1])]
        rfl
      | sameStructure ks =>
        simp only [Check.ps] at q1
        simp only [Check.run, q1, Res.ok_bind]
        rw [allSame_of (fun a ha b hb => by
          obtain ⟨r1, r2, r3⟩ := hA' a ha b hb
          cases h' : b.ty.sparse with
          | true =>
            rw [h'] at r3
            simp [isSameStructure, r3, h', r1, r2 r3]
          | false =>
            rw [h'] at r3
            simp [isSameStructure, r3, h', r1])]
        rfl
    simp only [runChecks, hc, Res.ok_bind]
    exact ih h.2

/-- a call whose checks are well formed either passes them or aborts -/
theorem runChecks_cases (H : Hash) {ps : List Par} {args as : List (Arg α)} {am : List Nat} (hT : Typed ps args)
    (has : passOn args am = .ok as) {cs : List Check}
    (h : cs.all (fun ch => ch.ps.all (okRef (ps.map Par.isObj) am)) = true) :
    runChecks H as cs = .ok () ∨ ∃ msg, runChecks H as cs = .abort msg := by
  induction cs with
  | nil => exact Or.inl rfl
  | cons c cs ih =>
    simp only [List.all_cons, Bool.and_eq_true] at h
    obtain ⟨os, q1, q2, _⟩ := getObjs_ref hT has h.1
    have hc : c.run H as = .ok () ∨ ∃ msg, c.run H as = .abort msg := by
      cases c with
      | sameSize ks =>
        simp only [Check.ps] at q1
        simp only [Check.run, q1, Res.ok_bind]
        cases allSame isSameSize os with
        | true => exact Or.inl rfl
        | false => exact Or.inr ⟨_, rfl⟩
      | sameStructure ks =>
        simp only [Check.ps] at q1
        simp only [Check.run, q1, Res.ok_bind]
        cases allSame (isSameStructure H) os with
        | true => exact Or.inl rfl
        | false => exact Or.inr ⟨_, rfl⟩
    rcases hc with hc | ⟨msg, hc⟩
    · simp only [runChecks, hc, Res.ok_bind]
      exact ih h.2
    · exact Or.inr ⟨msg, by simp only [runChecks, hc]; rfl⟩

/-- value of parameter `j` at position `i` -/
def vAt [IntCast α] (mem : List α) (i : Nat) (args : List (Arg α)) (j : Nat) : α :=
  ((args[j]?).bind (fun a => a.at_ mem i)).getD ((0 : Int) : α)

variable [IntCast α] [Add α] [Sub α] [Mul α] [Div α] [Max α] [Min α]

/-- the loop of a symbolically executed overload -/
theorem Overload.loop_sym (H : Hash) (M : Cmath α) {mode : Mode} {o : Overload} {n dst : Nat} {e : Expr}
    (h : o.sym mode = some (n, dst, e)) {args : List (Arg α)} (hT : Typed o.pars args)
    {as : List (Arg α)} (has : passOn args o.args = .ok as) (hc : runChecks H as o.coreDef.checks = .ok ()) :
    ∃ on out m e', args[n]? = some (.obj on) ∧ args[dst]? = some (.obj out) ∧ e = Expr.subst m e' ∧
      (∀ p ∈ e'.reads, ∃ ob, args[m.getD p 0]? = some (.obj ob)) ∧
      (∃ kinds, e'.wellKinded kinds = true ∧ kinds = (m.map (kvAt args)).map KVal.isPtr) ∧
      o.loop H M mode args = .ok
        { N := on.arr.size
          srcs := fun i => e'.reads.map (fun p => ptrOf (m.map (kvAt args)) p + i)
          dst := fun i => out.arr.off + i
          f := fun _ reg => e'.eval M (numOf (m.map (kvAt args))) reg 0 } := by
  simp only [Overload.sym] at h
  split at h
  · rename_i hb
    simp only [Bool.and_eq_true] at hb
    obtain ⟨⟨_, hb2⟩, hb3⟩ := hb
    cases hm : argMap (o.pars.map Par.isObj) o.args o.coreDef.args with
    | none => rw [hm] at h; simp at h
    | some m =>
      rw [hm] at h
      simp only at h
      cases hk : theKernel (precOf o.pars) (kindsAt (o.pars.map Par.isObj) m) o.coreDef.body with
      | none => rw [hk] at h; simp at h
      | some k =>
        rw [hk] at h
        simp only at h
        cases hs : (k.stmt mode).asLoop with
        | none => rw [hs] at h; simp at h
        | some de =>
          obtain ⟨d, e'⟩ := de
          rw [hs] at h
          simp only [Option.ite_none_right_eq_some, Bool.and_eq_true, decide_eq_true_eq, beq_iff_eq,
            Option.some.injEq, Prod.mk.injEq] at h
          obtain ⟨⟨⟨k1, k2⟩, k3⟩, k4, k5, k6⟩ := h
          obtain ⟨on, g1, g2⟩ := getObj_ref hT has hb3
          obtain ⟨v1, v2⟩ := evalArgs_eq hT has hm
          -- kinds of the arguments
          have hkind : ∀ p, k.pars[p]? = some true → ∃ ob, args[m.getD p 0]? = some (.obj ob) := by
            intro p hp
            rw [← k1] at hp
            simp only [kindsAt, List.getElem?_map] at hp
            cases hmp : m[p]? with
            | none => rw [hmp] at hp; simp at hp
            | some j =>
              rw [hmp] at hp
              simp only [Option.map_some, Option.some.injEq] at hp
              have : (o.pars.map Par.isObj)[j]? = some true := by
                rw [List.getElem?_map]
                cases hq : o.pars[j]? with
                | none => rw [hq] at hp; simp at hp
                | some q => rw [hq] at hp; simpa using hp
              obtain ⟨a, ha, hob⟩ := hT.isObj this
              cases a with
              | scal x => simp [Arg.isObj] at hob
              | obj ob => exact ⟨ob, by rw [List.getD_eq_getElem?_getD, hmp]; exact ha⟩
          obtain ⟨out, hout⟩ := hkind d k2
          refine ⟨on, out, m, e', by rw [← k4]; exact g2, by rw [← k5]; exact hout, k6.symm,
            fun p hp => hkind p (Expr.reads_kinded k3 p hp), ⟨k.pars, k3, by rw [v2, k1]⟩, ?_⟩
          have hd : ptrOf (m.map (kvAt args)) d = out.arr.off := by
            have : d < m.length := by
              rcases Nat.lt_or_ge d m.length with hlt | hge
              · exact hlt
              · rw [← k1] at k2
                simp only [kindsAt, List.getElem?_map, List.getElem?_eq_none hge] at k2
                simp at k2
            simp only [ptrOf, List.getElem?_map, List.getElem?_eq_getElem this, Option.map_some]
            rw [List.getD_eq_getElem?_getD, List.getElem?_eq_getElem this] at hout
            simp only [Option.getD_some] at hout
            simp [kvAt, hout, Arg.kval]
          have hL : k.loop M mode on.arr.size (m.map (kvAt args)) = .ok
              { N := on.arr.size
                srcs := fun i => e'.reads.map (fun p => ptrOf (m.map (kvAt args)) p + i)
                dst := fun i => out.arr.off + i
                f := fun _ reg => e'.eval M (numOf (m.map (kvAt args))) reg 0 } := by
            have hn : ¬ ((m.map (kvAt args)).map KVal.isPtr ≠ k.pars) := by rw [v2, k1]; simp
            simp only [Kern.loop, if_neg hn, hs]
            rw [if_pos (by simp [k2, k3])]
            simp only [hd]
          unfold Overload.loop CoreDef.loop
          simp only [has, Res.ok_bind, hc, g1, v1, v2]
          cases hbody : o.coreDef.body with
          | own k' =>
            rw [hbody] at hk
            simp only [theKernel, Option.ite_none_right_eq_some, Option.some.injEq] at hk
            obtain ⟨h1, h2⟩ := hk
            subst h2
            simp only [h1, if_true]
            exact hL
          | call name =>
            rw [hbody] at hk
            simp only [theKernel] at hk
            simp only [hk]
            exact hL
  · simp at h

end Verif.Dispatch
