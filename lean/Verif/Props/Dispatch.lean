import Verif.Lemmas.DispatchTab
import Verif.Props.Elementwise
import Mathlib.Tactic.Ring

/-!
C64: every element-wise overload of the API computes the function of its name, in every build
configuration. C65: mismatched arguments are rejected.
-/

namespace Verif.Dispatch

open Verif.Conc

variable {R : Type} [CommRing R] [LinearOrder R] [Div R]

omit [LinearOrder R] [Div R] in
theorem vAt_of {mem : List R} {i : Nat} {args : List (Arg R)} {j : Nat} {a : Arg R} {x : R}
    (h : args[j]? = some a) (hx : a.at_ mem i = some x) : vAt mem i args j = x := by
  simp [vAt, h, hx]

omit [CommRing R] [LinearOrder R] [Div R] in
theorem valuesAt_get {mem : List R} {i : Nat} {args : List (Arg R)} {vs : List R}
    (h : valuesAt mem i args = some vs) (j : Nat) (a : Arg R) (ha : args[j]? = some a) :
    a.at_ mem i = vs[j]? := by
  induction args generalizing vs j with
  | nil => simp at ha
  | cons b bs ih =>
    simp only [valuesAt, Option.bind_eq_bind, Option.bind_eq_some_iff] at h
    obtain ⟨v, h1, ws, h2, h3⟩ := h
    simp only [Option.some.injEq] at h3
    subst h3
    cases j with
    | zero => simp only [List.getElem?_cons_zero, Option.some.injEq] at ha ⊢; rw [← ha, h1]
    | succ j => simp only [List.getElem?_cons_succ] at ha ⊢; exact ih h2 j ha

omit [CommRing R] [LinearOrder R] [Div R] in
theorem valuesAt_length {mem : List R} {i : Nat} {args : List (Arg R)} {vs : List R}
    (h : valuesAt mem i args = some vs) : vs.length = args.length := by
  induction args generalizing vs with
  | nil => simp only [valuesAt, Option.some.injEq] at h; subst h; rfl
  | cons b bs ih =>
    simp only [valuesAt, Option.bind_eq_bind, Option.bind_eq_some_iff] at h
    obtain ⟨v, h1, ws, h2, h3⟩ := h
    simp only [Option.some.injEq] at h3
    subst h3
    simp [ih h2]

omit [CommRing R] [LinearOrder R] [Div R] in
theorem valuesAt_some {mem : List R} {i : Nat} {args : List (Arg R)}
    (h : ∀ o ∈ objs args, i < o.arr.size ∧ o.arr.off + o.arr.size ≤ mem.length) :
    ∃ vs, valuesAt mem i args = some vs := by
  induction args with
  | nil => exact ⟨[], rfl⟩
  | cons b bs ih =>
    cases b with
    | scal x =>
      obtain ⟨vs, hv⟩ := ih (fun o ho => h o (by simpa [objs] using ho))
      exact ⟨x :: vs, by simp [valuesAt, Arg.at_, hv]⟩
    | obj o =>
      obtain ⟨vs, hv⟩ := ih (fun o' ho => h o' (by simp [objs, ho]))
      obtain ⟨h1, h2⟩ := h o (by simp [objs])
      have : o.arr.off + i < mem.length := by omega
      exact ⟨mem[o.arr.off + i] :: vs, by simp [valuesAt, Arg.at_, Arr.el, this, hv]⟩

/-- the expression of each function has the documented value -/
theorem code_want (M : Cmath R) {f : Fn} {kinds : List Bool} {e : Expr} (h : f.code kinds = some e)
    {vs : List R} (hl : vs.length = kinds.length) :
    f.want M vs = some (e.val M (fun j => vs.getD j ((0 : Int) : R))) := by
  unfold Fn.code at h
  split at h <;> simp only [Option.some.injEq, reduceCtorEq] at h <;> subst h
  all_goals first
    | (obtain ⟨a, b, rfl⟩ : ∃ a b, vs = [a, b] := by
        match vs, hl with | [a, b], _ => exact ⟨a, b, rfl⟩
       simp [Fn.want, Expr.val, BinOp.eval, mul_comm]; done)
    | (obtain ⟨a, b, c, rfl⟩ : ∃ a b c, vs = [a, b, c] := by
        match vs, hl with | [a, b, c], _ => exact ⟨a, b, c, rfl⟩
       simp [Fn.want, Expr.val, BinOp.eval, mul_comm, add_comm]; done)
    | (obtain ⟨a, b, c, d, rfl⟩ : ∃ a b c d, vs = [a, b, c, d] := by
        match vs, hl with | [a, b, c, d], _ => exact ⟨a, b, c, d, rfl⟩
       simp [Fn.want, Expr.val, BinOp.eval, mul_comm, add_comm]; done)
    | skip
  obtain ⟨a, b, c, d, rfl⟩ : ∃ a b c d, vs = [a, b, c, d] := by
    match vs, hl with | [a, b, c, d], _ => exact ⟨a, b, c, d, rfl⟩
  simp only [Fn.want, Expr.val, BinOp.eval, List.getD_cons_zero, List.getD_cons_succ, Option.some.injEq,
    Int.cast_zero]
  split
  · rename_i h0; rw [min_eq_right h0]; ring
  · rename_i h0; rw [min_eq_left (le_of_lt (lt_of_not_ge h0))]; ring

theorem code_reads {f : Fn} {kinds : List Bool} {e : Expr} (h : f.code kinds = some e) :
    e.reads.length ≤ 2 := by
  unfold Fn.code at h
  split at h <;> simp only [Option.some.injEq, reduceCtorEq] at h <;> subst h <;> simp [Expr.reads]

theorem reads_subst (m : List Nat) (e : Expr) : (e.subst m).reads = e.reads.map (fun p => m.getD p 0) := by
  induction e with
  | el k => rfl
  | sc k => rfl
  | lit z => rfl
  | un f e ih => exact ih
  | bin op l r ihl ihr => simp only [Expr.subst, Expr.reads, ihl, ihr, List.map_append]

omit [CommRing R] [LinearOrder R] [Div R] in
theorem size_eq {os : List Obj} (hA : Alike os) (hW : ∀ o ∈ os, o.WF)
    (hS : ∀ a ∈ os, ∀ b ∈ os, a.ty.sparse = b.ty.sparse) {a b : Obj} (ha : a ∈ os) (hb : b ∈ os) :
    a.arr.size = b.arr.size := by
  rw [hW a ha, hW b hb, hS a ha b hb]
  obtain ⟨h1, h2⟩ := hA a ha b hb
  cases h : b.ty.sparse with
  | false => simp [h1]
  | true => simp [h2 (by rw [hS a ha b hb, h])]

omit [CommRing R] [LinearOrder R] [Div R] in
theorem sparse_eq {ps : List Par} (hU : uniform ps = true) {args : List (Arg R)} (hT : Typed ps args) :
    ∀ a ∈ objs args, a.ty.sparse = anySparse ps := by
  intro a ha
  obtain ⟨k, hk⟩ := List.mem_iff_getElem?.mp (mem_objs.mp ha)
  have hlt : k < ps.length := by
    rw [hT.length]
    rcases Nat.lt_or_ge k args.length with h | h
    · exact h
    · rw [List.getElem?_eq_none h] at hk; simp at hk
  obtain ⟨b, hb, ht⟩ := hT.get (List.getElem?_eq_getElem hlt)
  rw [hk] at hb
  simp only [Option.some.injEq] at hb
  subst hb
  have hu := List.all_eq_true.mp hU _ (List.getElem_mem hlt)
  cases hp : ps[k] with
  | scal p => rw [hp] at ht; exact ht.elim
  | obj t p c =>
    rw [hp] at ht hu
    simp only [beq_iff_eq] at hu
    rw [ht.1]; exact hu

/-- the preconditions of a call of the element-wise API: arguments of the right types, containers
well formed, of one shape (and one pattern if sparse), in memory, and the one written coincides with an input
or does not overlap it -/
structure Legal (o : Overload) (args : List (Arg R)) (out : Obj) (mem : List R) : Prop where
  typed : Typed o.pars args
  wf : ∀ a ∈ objs args, a.WF
  alike : Alike (objs args)
  inside : ∀ a ∈ objs args, a.arr.off + a.arr.size ≤ mem.length
  writes : output args = some out
  compat : ∀ a ∈ objs args, a.arr.Compatible out.arr

/-- **C64.** For every element-wise overload of the library (all 6238 in the dispatch files), in every build
configuration (plain, MKL, GPU offload), for all arguments that fit together, and for every interleaving of the
iterations: the call runs without fault, completes, stores at every position of its last argument the
documented function of the values the arguments had there before the call, and changes nothing else. -/
theorem C64_elementwise_api (o : Overload) (ho : o ∈ api) (mode : Mode) (H : Hash) (M : Cmath R)
    (args : List (Arg R)) (out : Obj) (mem : List R) (h : Legal o args out mem) (sched : List Nat)
    (garbage : Nat → Nat → R) :
    ∃ s, o.exec H M mode args sched mem garbage = .ok s ∧
      Promise out.arr (fun i => (valuesAt mem i args).bind (o.fn.want M)) sched mem s := by
  obtain ⟨hT, hW, hA, hIn, hOut, hAl⟩ := h
  have hg := good_api ho
  simp only [Overload.good2, Overload.good, Bool.and_eq_true] at hg
  obtain ⟨⟨hU, hg1, hg2, hg3⟩, -⟩ := hg
  have hg : o.good1 mode = true := by cases mode <;> assumption
  simp only [Overload.good1] at hg
  cases hsym : o.sym mode with
  | none => rw [hsym] at hg; simp at hg
  | some r =>
    obtain ⟨n, dst, e⟩ := r
    rw [hsym] at hg
    simp only [Bool.and_eq_true, decide_eq_true_eq] at hg
    obtain ⟨hd, hcode⟩ := hg
    -- the checks pass
    have hSp := sparse_eq hU hT
    have hS : ∀ a ∈ objs args, ∀ b ∈ objs args, a.ty.sparse = b.ty.sparse :=
      fun a ha b hb => by rw [hSp a ha, hSp b hb]
    have hwf : (o.args.all (fun j => decide (j < (o.pars.map Par.isObj).length)) &&
        o.coreDef.checks.all (fun ch => ch.ps.all (okRef (o.pars.map Par.isObj) o.args)) &&
        okRef (o.pars.map Par.isObj) o.args o.coreDef.n) = true := by
      have h' := hsym
      simp only [Overload.sym] at h'
      split at h'
      · assumption
      · simp at h'
    simp only [Bool.and_eq_true] at hwf
    obtain ⟨⟨w1, w2⟩, w3⟩ := hwf
    obtain ⟨as, has⟩ := passOn_ok (args := args) (am := o.args) (by
      intro j hj
      have := List.all_eq_true.mp w1 j hj
      simp only [List.length_map, decide_eq_true_eq] at this
      rw [← hT.length]; exact this)
    have hc := runChecks_ok H hT has hA hS w2
    obtain ⟨on, out', m, e', a1, a2, a3, a4, ⟨kinds, a5, a6⟩, a7⟩ := Overload.loop_sym H M hsym hT has hc
    -- the written object is the last argument
    have hoo : out' = out := by
      have : args.getLast? = some (.obj out') := by
        rw [List.getLast?_eq_getElem?, ← hT.length, ← hd]
        simpa using a2
      simp only [output, this, Option.some.injEq] at hOut
      exact hOut
    subst hoo
    have mo : out' ∈ objs args := mem_objs.mpr (List.mem_of_getElem? a2)
    have mn : on ∈ objs args := mem_objs.mpr (List.mem_of_getElem? a1)
    have hsz : ∀ a ∈ objs args, a.arr.size = out'.arr.size := fun a ha => size_eq hA hW hS ha mo
    have hptr : ∀ p ∈ e'.reads, ∃ ob ∈ objs args, args[m.getD p 0]? = some (.obj ob) ∧
        ptrOf (m.map (kvAt args)) p = ob.arr.off := by
      intro p hp
      obtain ⟨ob, hob⟩ := a4 p hp
      refine ⟨ob, mem_objs.mpr (List.mem_of_getElem? hob), hob, ?_⟩
      have hk := Expr.reads_kinded a5 p hp
      rw [a6, List.getElem?_map, List.getElem?_map] at hk
      cases hmp : m[p]? with
      | none => rw [hmp] at hk; simp at hk
      | some j =>
        rw [List.getD_eq_getElem?_getD, hmp] at hob
        simp only [Option.getD_some] at hob
        simp only [ptrOf, List.getElem?_map, hmp, Option.map_some, kvAt, hob, Arg.kval]
    have hRF : RaceFree
        { N := on.arr.size
          srcs := fun i => e'.reads.map (fun p => ptrOf (m.map (kvAt args)) p + i)
          dst := fun i => out'.arr.off + i
          f := fun _ reg => e'.eval M (numOf (m.map (kvAt args))) reg 0 } mem := by
      refine ⟨?_, ?_, ?_, ?_⟩
      · intro i hi b hb
        simp only [List.mem_map] at hb
        obtain ⟨p, hp, rfl⟩ := hb
        obtain ⟨ob, mob, -, h2⟩ := hptr p hp
        have h3 := hIn ob mob; have h4 := hsz ob mob; have h5 := hsz on mn
        simp only at hi
        omega
      · intro i hi
        have h3 := hIn out' mo; have h5 := hsz on mn
        simp only at hi ⊢
        omega
      · intro i j _ _ hij; simp only at hij; omega
      · intro i j hi hj hne hb
        simp only [List.mem_map] at hb hi hj
        obtain ⟨p, hp, hpe⟩ := hb
        obtain ⟨ob, mob, -, h2⟩ := hptr p hp
        have h3 := hAl ob mob; have h4 := hsz ob mob; have h5 := hsz on mn
        unfold Arr.Compatible at h3
        omega
    obtain ⟨s, hs, hcomp, hres⟩ := raceFree_run hRF sched garbage
    refine ⟨s, ?_, ?_, ?_⟩
    · unfold Overload.exec
      rw [a7, Res.ok_bind]; exact hs
    · intro hcount
      have h5 := hsz on mn
      intro i hi
      refine hcomp ?_ i (by simp only; omega)
      intro i' hi'
      simp only [List.length_map]
      have h6 := code_reads hcode
      rw [a3, reads_subst, List.length_map] at h6
      have := hcount i' (by simp only at hi'; omega)
      omega
    · intro hF
      have h5 := hsz on mn
      obtain ⟨q1, q2, q3⟩ := hres (fun i hi => hF i (by simp only at hi; omega))
      refine ⟨q1, ?_, ?_⟩
      · intro i hi
        obtain ⟨reg, hl, hv⟩ := q2 i (by simp only; omega)
        obtain ⟨vs, hvs⟩ := valuesAt_some (mem := mem) (i := i) (args := args) (fun a ha =>
          ⟨by rw [hsz a ha]; exact hi, hIn a ha⟩)
        have hlen := valuesAt_length hvs
        refine ⟨_, ?_, hv⟩
        simp only [hvs, Option.bind_some]
        rw [code_want M hcode (by rw [hlen, List.length_map, hT.length])]
        congr 1
        rw [a3, Expr.val_subst]
        symm
        refine Expr.eval_eq M _ _ _ e' 0 kinds a5 ?_ ?_
        · -- scalars
          intro k hk
          rw [a6, List.getElem?_map, List.getElem?_map] at hk
          cases hmk : m[k]? with
          | none => rw [hmk] at hk; simp at hk
          | some j =>
            rw [hmk] at hk
            simp only [Option.map_some, Option.some.injEq] at hk
            simp only [numOf, List.getElem?_map, hmk, Option.map_some, List.getD_eq_getElem?_getD,
              Option.getD_some]
            unfold kvAt at hk ⊢
            cases haj : args[j]? with
            | none => rw [haj] at hk; simp [KVal.isPtr] at hk
            | some a =>
              rw [haj] at hk
              cases a with
              | obj ob => simp [Arg.kval, KVal.isPtr] at hk
              | scal x =>
                simp only [Arg.kval]
                have := valuesAt_get hvs j _ haj
                simp only [Arg.at_] at this
                rw [← this]; rfl
        · -- elements
          intro t p ht hp
          have hpm : p ∈ e'.reads := List.mem_of_getElem? ht
          obtain ⟨ob, mob, h1, h2⟩ := hptr p hpm
          have hlt : t < e'.reads.length := by
            rcases Nat.lt_or_ge t e'.reads.length with h | h
            · exact h
            · rw [List.getElem?_eq_none h] at ht; simp at ht
          have := hl t (ptrOf (m.map (kvAt args)) p + i) (by simpa using hlt) (by simp [ht])
          rw [h2] at this
          have hv' := valuesAt_get hvs _ _ h1
          simp only [Arg.at_, Arr.el] at hv'
          rw [this] at hv'
          simp only [Nat.zero_add, List.getD_eq_getElem?_getD]
          rw [List.getD_eq_getElem?_getD] at hv'
          rw [← hv']; rfl
      · intro k hk
        apply q3
        intro i hi
        simp only at hi ⊢
        omega

/-- rows of the tables are overloads of the API -/
theorem mem_api_vmlVec {o : Overload} {l : List Overload} (h : o ∈ l) (hl : l ∈ tVmlVec) : o ∈ api := by
  unfold api
  exact List.mem_flatten.mpr ⟨l, by simp only [List.mem_append]; iterate 13 left
                                    exact hl, h⟩

theorem mem_api_vmlMat {o : Overload} {l : List Overload} (h : o ∈ l) (hl : l ∈ tVmlMat) : o ∈ api := by
  unfold api
  exact List.mem_flatten.mpr ⟨l, by simp only [List.mem_append]; iterate 12 left
                                    right; exact hl, h⟩

/-- non-vacuity: `vml::sub(const view1D<matrix::Dense> &, const vector &, vector &)` in place on a vector
inside a larger memory -/
example : ∃ (o : Overload) (args : List (Arg Int)) (out : Obj), o ∈ api ∧ o.fn = .vml_sub ∧
    Legal o args out [1, 2, 3, 4, 5, 6, 7] ∧ out.arr.size = 3 := by
  refine ⟨⟨.vml_sub, [.obj (.view1D .mat) .d true, .obj .vector .d true, .obj .vector .d false], .vmlvec_vvsub,
    [0, 1, 2]⟩, [.obj ⟨.view1D .mat, .d, ⟨4, 3⟩, [3], ([], [])⟩, .obj ⟨.vector, .d, ⟨1, 3⟩, [3], ([], [])⟩,
      .obj ⟨.vector, .d, ⟨1, 3⟩, [3], ([], [])⟩], ⟨.vector, .d, ⟨1, 3⟩, [3], ([], [])⟩, ?_, rfl,
      ⟨?_, ?_, ?_, ?_, rfl, ?_⟩, rfl⟩
  · exact mem_api_vmlVec (l := tVmlVec_2) (by decide +kernel) (by decide +kernel)
  · exact ⟨⟨rfl, rfl⟩, ⟨rfl, rfl⟩, ⟨rfl, rfl⟩, trivial⟩
  · unfold Obj.WF; decide
  · unfold Alike; decide
  · decide
  · unfold Arr.Compatible; decide

/-! ### C65: mismatched arguments are rejected -/

variable {α : Type} [IntCast α] [Add α] [Sub α] [Mul α] [Div α] [Max α] [Min α]

omit [IntCast α] [Add α] [Sub α] [Mul α] [Div α] [Max α] [Min α] in
theorem runChecks_all {H : Hash} {as : List (Arg α)} {cs : List Check} (h : runChecks H as cs = .ok ()) :
    ∀ c ∈ cs, c.run H as = .ok () := by
  induction cs with
  | nil => simp
  | cons c cs ih =>
    simp only [runChecks] at h
    obtain ⟨u, h1, h2⟩ := Res.bind_eq_ok.mp h
    intro c' hc'
    rcases List.mem_cons.mp hc' with rfl | hc'
    · exact h1
    · exact ih h2 c' hc'

omit [IntCast α] [Add α] [Sub α] [Mul α] [Div α] [Max α] [Min α] in
theorem index_of {ps : List Par} {args : List (Arg α)} (hT : Typed ps args) {a : Obj} (ha : a ∈ objs args) :
    ∃ k ∈ objIdx ps, args[k]? = some (.obj a) := by
  obtain ⟨k, hk⟩ := List.mem_iff_getElem?.mp (mem_objs.mp ha)
  refine ⟨k, ?_, hk⟩
  have hlt : k < ps.length := by
    rw [hT.length]
    rcases Nat.lt_or_ge k args.length with h | h
    · exact h
    · rw [List.getElem?_eq_none h] at hk; simp at hk
  obtain ⟨b, hb, ht⟩ := hT.get (List.getElem?_eq_getElem hlt)
  rw [hk] at hb
  simp only [Option.some.injEq] at hb
  subst hb
  simp only [objIdx, List.mem_filter, List.mem_range, List.getElem?_map, List.getElem?_eq_getElem hlt,
    Option.map_some, Option.getD_some]
  refine ⟨hlt, ?_⟩
  cases hp : ps[k] with
  | scal p => rw [hp] at ht; exact ht.elim
  | obj t p c => rfl

omit [IntCast α] [Add α] [Sub α] [Mul α] [Div α] [Max α] [Min α] in
theorem single_unique {o : Overload} (h : o.single = true) {args : List (Arg α)} (hT : Typed o.pars args)
    {a b : Obj} (ha : a ∈ objs args) (hb : b ∈ objs args) : a = b := by
  obtain ⟨k, hk, hka⟩ := index_of hT ha
  obtain ⟨k', hk', hkb⟩ := index_of hT hb
  simp only [Overload.single, decide_eq_true_eq] at h
  obtain ⟨j, hj⟩ := List.length_eq_one_iff.mp h
  rw [hj, List.mem_singleton] at hk hk'
  subst hk; subst hk'
  rw [hka] at hkb
  simpa using hkb

theorem allSame_eq {β : Type} (g : Obj → β) {r : Obj → Obj → Bool} (hr : ∀ a b, r a b = true → g a = g b)
    {os : List Obj} (h : allSame r os = true) : ∀ a ∈ os, ∀ b ∈ os, g a = g b := by
  cases os with
  | nil => simp
  | cons o os =>
    simp only [allSame, List.all_eq_true] at h
    have h' : ∀ a ∈ o :: os, g a = g o := by
      intro a ha
      rcases List.mem_cons.mp ha with rfl | ha
      · rfl
      · exact (hr o a (h a ha)).symm
    intro a ha b hb
    rw [h' a ha, h' b hb]

/-- if the checks pass, the compared containers agree in what is compared -/
theorem checked_eq {H : Hash} {o : Overload} {args as : List (Arg α)} (hT : Typed o.pars args)
    (has : passOn args o.args = .ok as)
    (hw : o.coreDef.checks.all (fun ch => ch.ps.all (okRef (o.pars.map Par.isObj) o.args)) = true)
    (hr : runChecks H as o.coreDef.checks = .ok ()) {st : Bool} (hc : o.checksAll st = true) {a b : Obj}
    (ha : a ∈ objs args) (hb : b ∈ objs args) :
    a.shape = b.shape ∧ (st = true → a.ty.sparse = true → b.ty.sparse = true → H a.pattern = H b.pattern) := by
  simp only [Overload.checksAll, List.any_eq_true, Overload.compared, List.mem_filterMap] at hc
  obtain ⟨ps, ⟨c, hcm, hcp⟩, hall⟩ := hc
  rw [List.all_eq_true] at hall
  obtain ⟨os, q1, q2, q3⟩ := getObjs_ref hT has (List.all_eq_true.mp hw c hcm)
  have hcr := runChecks_all hr c hcm
  have hmem : ∀ x ∈ objs args, ps = c.ps.map (fun k => o.args.getD k 0) → x ∈ os := by
    intro x hx hps
    obtain ⟨k, hk, hkx⟩ := index_of hT hx
    have := hall k hk
    simp only [decide_eq_true_eq, hps, List.mem_map] at this
    obtain ⟨k', hk', hke⟩ := this
    obtain ⟨x', hx', hx2⟩ := q3 k' hk'
    rw [hke, hkx] at hx2
    simp only [Option.some.injEq, Arg.obj.injEq] at hx2
    rw [hx2]; exact hx'
  cases c with
  | sameSize ks =>
    simp only [Check.ps] at q1 hmem
    cases st with
    | true => simp at hcp
    | false =>
      simp only [Bool.false_eq_true, if_false, Option.some.injEq] at hcp
      have hx := hmem a ha hcp.symm
      have hy := hmem b hb hcp.symm
      simp only [Check.run, q1, Res.ok_bind] at hcr
      cases hS : allSame isSameSize os with
      | false => rw [hS] at hcr; cases hcr
      | true =>
        exact ⟨allSame_eq Obj.shape (fun a b h => by simpa [isSameSize] using h) hS a hx b hy, by simp⟩
  | sameStructure ks =>
    simp only [Check.ps] at q1 hmem
    simp only [Option.some.injEq] at hcp
    have hx := hmem a ha hcp.symm
    have hy := hmem b hb hcp.symm
    simp only [Check.run, q1, Res.ok_bind] at hcr
    cases hS : allSame (isSameStructure H) os with
    | false => rw [hS] at hcr; cases hcr
    | true =>
      refine ⟨allSame_eq Obj.shape (fun a b h => ?_) hS a hx b hy, fun _ h1 h2 => ?_⟩
      · unfold isSameStructure at h
        split at h
        · simp only [Bool.and_eq_true, decide_eq_true_eq] at h; exact h.1
        · simpa using h
        · simp at h
      · have := allSame_eq (fun x => if x.ty.sparse then H x.pattern else 0) (fun a b h => ?_) hS a hx b hy
        · simpa [h1, h2] using this
        · unfold isSameStructure at h
          split at h
          · rename_i e1 e2
            simp only [Bool.and_eq_true, decide_eq_true_eq] at h
            simp [e1, e2, h.2]
          · rename_i e1 e2; simp [e1, e2]
          · simp at h

/-- the well-formedness part of symbolic execution -/
theorem good_wf {o : Overload} (h : o.good = true) :
    (∀ j ∈ o.args, j < o.pars.length) ∧
      o.coreDef.checks.all (fun ch => ch.ps.all (okRef (o.pars.map Par.isObj) o.args)) = true := by
  simp only [Overload.good, Bool.and_eq_true] at h
  have h' := h.2.1
  simp only [Overload.good1] at h'
  cases hs : o.sym .cpu with
  | none => rw [hs] at h'; simp at h'
  | some r =>
    simp only [Overload.sym] at hs
    split at hs
    · rename_i hb
      simp only [Bool.and_eq_true] at hb
      refine ⟨fun j hj => ?_, hb.1.2⟩
      have := List.all_eq_true.mp hb.1.1 j hj
      simpa using this
    · simp at hs

/-- a call whose checks do not pass aborts, whatever the memory and the schedule -/
theorem exec_abort {o : Overload} (h : o.good = true) {H : Hash} {M : Cmath α} {mode : Mode}
    {args : List (Arg α)} (hT : Typed o.pars args)
    (hn : ∀ as, passOn args o.args = .ok as → runChecks H as o.coreDef.checks ≠ .ok ()) (sched : List Nat)
    (mem : List α) (gb : Nat → Nat → α) :
    ∃ msg, o.exec H M mode args sched mem gb = .abort msg := by
  obtain ⟨w1, w2⟩ := good_wf h
  obtain ⟨as, has⟩ := passOn_ok (args := args) (am := o.args) (by
    intro j hj; rw [← hT.length]; exact w1 j hj)
  rcases runChecks_cases H hT has w2 with hr | ⟨msg, hr⟩
  · exact absurd hr (hn as has)
  · refine ⟨msg, ?_⟩
    unfold Overload.exec Overload.loop CoreDef.loop
    simp only [has, Res.ok_bind, hr]
    rfl

/-- **C65 (shapes).** Every element-wise function of the API, except `blas::times(a, b, y)`, stops (failed
assertion) when two of its container arguments have different shapes; nothing is computed. -/
theorem C65_shapes_checked (o : Overload) (ho : o ∈ api)
    (hx : ¬ (o.fn = .blas_times ∧ o.pars.map Par.isObj = [true, true, true])) (H : Hash) (M : Cmath α)
    (mode : Mode) (args : List (Arg α)) (hT : Typed o.pars args) (a b : Obj) (ha : a ∈ objs args)
    (hb : b ∈ objs args) (hne : a.shape ≠ b.shape) (sched : List Nat) (mem : List α) (gb : Nat → Nat → α) :
    ∃ msg, o.exec H M mode args sched mem gb = .abort msg := by
  have hg := good_api ho
  simp only [Overload.good2, Overload.goodChecks, Bool.and_eq_true, Bool.or_eq_true] at hg
  refine exec_abort hg.1 hT ?_ sched mem gb
  intro as has hr
  rcases hg.2.1 with (h | h) | h
  · exact hne (by rw [single_unique h hT ha hb])
  · simp only [Overload.isTimesVec, Bool.and_eq_true, decide_eq_true_eq] at h
    exact hx h
  · exact hne (checked_eq hT has (good_wf hg.1).2 hr h ha hb).1

/-- **C65 (structure, what holds).** Every element-wise function on sparse matrices or tensors, except
`vml::add/sub/mul/div` with a scalar, stops when the structure hashes of two arguments differ. -/
theorem C65_structure_checked_partial (o : Overload) (ho : o ∈ api)
    (hx : ¬ ((o.fn = .vml_add ∨ o.fn = .vml_sub ∨ o.fn = .vml_mul ∨ o.fn = .vml_div) ∧
      o.pars.map Par.isObj = [true, false, true])) (H : Hash) (M : Cmath α)
    (mode : Mode) (args : List (Arg α)) (hT : Typed o.pars args) (a b : Obj) (ha : a ∈ objs args)
    (hb : b ∈ objs args) (hs : a.ty.sparse = true) (hne : H a.pattern ≠ H b.pattern) (sched : List Nat)
    (mem : List α) (gb : Nat → Nat → α) :
    ∃ msg, o.exec H M mode args sched mem gb = .abort msg := by
  have hg := good_api ho
  simp only [Overload.good2, Overload.goodChecks, Bool.and_eq_true, Bool.or_eq_true] at hg
  have hU : uniform o.pars = true := by
    have := hg.1
    simp only [Overload.good, Bool.and_eq_true] at this
    exact this.1
  have hSp := sparse_eq hU hT
  have hsb : b.ty.sparse = true := by rw [hSp b hb, ← hSp a ha]; exact hs
  refine exec_abort hg.1 hT ?_ sched mem gb
  intro as has hr
  rcases hg.2.2 with ((h | h) | h) | h
  · exact hne (by rw [single_unique h hT ha hb])
  · rw [hSp a ha] at hs
    rw [hs] at h
    simp at h
  · simp only [Overload.isScalarArith, Bool.and_eq_true, Bool.or_eq_true, decide_eq_true_eq] at h
    apply hx
    refine ⟨?_, h.2⟩
    rcases h.1 with ((h | h) | h) | h
    · exact Or.inl h
    · exact Or.inr (Or.inl h)
    · exact Or.inr (Or.inr (Or.inl h))
    · exact Or.inr (Or.inr (Or.inr h))
  · exact hne ((checked_eq hT has (good_wf hg.1).2 hr h ha hb).2 rfl hs hsb)

/-- the matrices of the counterexample: 2x2, entries (0,0) and (0,1); and entry (0,0) only -/
def cexA : Obj := ⟨.crs, .d, ⟨0, 2⟩, [2, 2], ([[0, 2, 2]], [[0, 1]])⟩
def cexC : Obj := ⟨.crs, .d, ⟨2, 1⟩, [2, 2], ([[0, 1, 1]], [[0]])⟩

/-- **C65 (structure, violated).** `vml::add(const CRS &A, alpha, CRS &C)` compares only the numbers of rows
and columns: with two well-formed 2x2 matrices of different structure, and any hash function (also one that
separates the structures), it writes beyond the end of `C`. -/
theorem C65_structure_violated : ∃ (o : Overload) (args : List (Arg Int)) (mem : List Int), o ∈ api ∧
    o.fn = .vml_add ∧ args = [.obj cexA, .scal 1, .obj cexC] ∧ Typed o.pars args ∧ cexA.WF ∧ cexC.WF ∧
    cexA.shape = cexC.shape ∧ cexA.pattern ≠ cexC.pattern ∧
    (∀ a ∈ objs args, a.arr.off + a.arr.size ≤ mem.length) ∧
    ∀ (H : Hash) (M : Cmath Int) (gb : Nat → Nat → Int),
      ∃ msg, o.exec H M .cpu args [0, 0, 1, 1] mem gb = .ub msg := by
  refine ⟨⟨.vml_add, [.obj .crs .d true, .scal .d, .obj .crs .d false], .vmlmat_smadd, [0, 1, 2]⟩, _,
    [10, 20, 30], ?_, rfl, rfl, ⟨⟨rfl, rfl⟩, trivial, ⟨rfl, rfl⟩, trivial⟩, by unfold Obj.WF; decide,
    by unfold Obj.WF; decide, rfl, by decide, by decide, ?_⟩
  · exact mem_api_vmlMat (l := tVmlMat_6) (by decide +kernel) (by decide +kernel)
  · intro H M gb
    exact ⟨_, rfl⟩

/-- non-vacuity of the rejections: `vml::max(A, alpha, C)` on the two matrices of the counterexample, with a
hash that separates them -/
example : ∃ (o : Overload) (args : List (Arg Int)) (H : Hash), o ∈ api ∧ o.fn = .vml_max ∧
    Typed o.pars args ∧ cexA ∈ objs args ∧ cexC ∈ objs args ∧ H cexA.pattern ≠ H cexC.pattern := by
  refine ⟨⟨.vml_max, [.obj .crs .d true, .scal .d, .obj .crs .d false], .vmlmat_smmax, [0, 1, 2]⟩,
    [.obj cexA, .scal 1, .obj cexC], fun p => p.2.flatten.length, ?_, rfl,
    ⟨⟨rfl, rfl⟩, trivial, ⟨rfl, rfl⟩, trivial⟩, by decide, by decide, by decide⟩
  exact mem_api_vmlMat (l := tVmlMat_19) (by decide +kernel) (by decide +kernel)

end Verif.Dispatch
