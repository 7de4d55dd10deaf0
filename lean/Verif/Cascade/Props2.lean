import Verif.Cascade.Props
import Verif.Select.Props

/-!
# C47, C48 and C64
-/
set_option linter.unusedVariables false
set_option linter.unusedSimpArgs false
namespace Verif.Cascade
open Verif Verif.Map Verif.Select

/-! ## C48: box shorthands -/

theorem stepAll_one (q : Quad) (v : Val) (fl : FixList) (hg : q.group = true) (h : q.OneWay v) :
    q.stepAll v fl = q.step v fl ∧ q.accepts v = true := by
  have gen : ∀ (alts : List (Val → Bool)) (fl : FixList),
      alts.foldl (fun fl a => if a v then q.step v fl else fl) fl =
        (alts.filter fun a => a v).foldl (fun fl _ => q.step v fl) fl := by
    intro alts
    induction alts with
    | nil => intro fl; rfl
    | cons a r ih =>
      intro fl
      rw [List.foldl_cons, ih, List.filter_cons]
      by_cases ha : a v = true <;> simp [ha]
  unfold Quad.OneWay at h
  obtain ⟨a, ha⟩ := List.length_eq_one_iff.1 h
  constructor
  · rw [Quad.stepAll, if_pos hg, gen, ha]; rfl
  · rw [Quad.accepts, List.any_eq_true]
    have : a ∈ q.alts.filter fun a => a v := by rw [ha]; simp
    exact ⟨a, (List.mem_filter.1 this).1, (List.mem_filter.1 this).2⟩

/-- the longhands are listed bottom, left, right, top; corners are listed so twice -/
def BoxOrder (name : Side → Str) (order : List Str) : Prop :=
  order = [name .bottom, name .left, name .right, name .top] ∨
  order = [name .bottom, name .left, name .right, name .top, name .bottom, name .left, name .right, name .top]

theorem names_box {name : Side → Str} {order : List Str} (h : BoxOrder name order) :
    (∃ extra, quadNames order 0 = some ([name .bottom, name .left, name .right, name .top] ++ extra) ∧
      ∀ n ∈ extra, ∃ s, n = name s) ∧
    quadNames order 1 = some [name .left, name .right] ∧ quadNames order 2 = some [name .bottom] ∧
    quadNames order 3 = some [name .left] := by
  rcases h with h | h
  · subst h
    exact ⟨⟨[], rfl, by simp⟩, rfl, rfl, rfl⟩
  · subst h
    refine ⟨⟨[name .bottom, name .left, name .right, name .top], rfl, ?_⟩, rfl, rfl, rfl⟩
    intro n hn
    simp at hn
    rcases hn with rfl | rfl | rfl | rfl <;> exact ⟨_, rfl⟩

theorem look_mapConst (names : List Str) (v : Val) (k : Str) :
    look (names.map (·, v)) k = if k ∈ names then some v else Option.none := by
  induction names with
  | nil => simp [look]
  | cons n r ih =>
    simp only [List.map_cons, look, ih, List.mem_cons]
    by_cases h : n = k
    · subst h; simp
    · have : ¬ k = n := fun e => h e.symm
      simp [h, this]

/-- the insertions made by a box shorthand -/
theorem quad_ran (q : Quad) (name : Side → Str) (hi : ∀ s t, name s = name t → s = t) (ho : BoxOrder name q.order)
    (hg : q.group = true) (vs : List Val) (h1 : 1 ≤ vs.length) (h4 : vs.length ≤ 4)
    (hv : ∀ v ∈ vs, q.OneWay v) (fl : FixList) (hc : cnt q fl = 0) :
    ∃ ins, (q.loop 0 vs fl).1 = true ∧ (q.loop 0 vs fl).2.list = insL fl.declOf ins fl.list ∧
      (∀ s, look ins.reverse (name s) = sideValue vs s) ∧ ∀ k, (∀ s, name s ≠ k) → look ins.reverse k = Option.none := by
  obtain ⟨⟨extra, n0, hx⟩, n1, n2, n3⟩ := names_box ho
  have S : ∀ (n : Nat) (ns : List Str) (v : Val) (gl : FixList), quadNames q.order n = some ns → cnt q gl = n →
      Ran q (ns.map (·, v)) (n + 1) gl (q.step v gl) := by
    intro n ns v gl hn hcn
    have := step_ran q v gl
    rw [hcn, hn] at this
    simpa using this
  have injk : ∀ s t, s ≠ t → name s ≠ name t := fun s t h e => h (hi s t e)
  have hx' : ∀ k, (∀ s, name s ≠ k) → k ∉ extra := by
    intro k hk hm
    obtain ⟨s, rfl⟩ := hx k hm
    exact hk s rfl
  have mem0 : ∀ s, name s ∈ [name .bottom, name .left, name .right, name .top] ++ extra := by
    intro s; cases s <;> simp
  have nmem0 : ∀ k, (∀ s, name s ≠ k) → k ∉ [name .bottom, name .left, name .right, name .top] ++ extra := by
    intro k hk hm
    rcases List.mem_append.1 hm with hm | hm
    · simp at hm; rcases hm with rfl | rfl | rfl | rfl <;> exact hk _ rfl
    · exact hx' k hk hm
  have rv : ∀ (ns : List Str) (v : Val), (ns.map (·, v)).reverse = (ns.reverse).map (·, v) := by
    intro ns v; simp
  have step1 : ∀ v ∈ vs, ∀ gl, q.stepAll v gl = q.step v gl ∧ q.accepts v = true :=
    fun v h gl => stepAll_one q v gl hg (hv v h)
  match vs, h1, h4 with
  | [a], _, _ =>
    have ha := step1 a (by simp)
    have r1 := S 0 _ a fl n0 hc
    have eL : (q.loop 0 [a] fl).2 = q.step a fl := by simp [Quad.loop, (ha fl).1, (ha fl).2]
    refine ⟨_, by simp [Quad.loop, (ha fl).2], by rw [eL]; exact r1.list, ?_, ?_⟩
    · intro s
      rw [rv, look_mapConst, if_pos (List.mem_reverse.2 (mem0 s))]
      rfl
    · intro k hk
      rw [rv, look_mapConst, if_neg (fun h => nmem0 k hk (List.mem_reverse.1 h))]
  | [a, b], _, _ =>
    have ha := step1 a (by simp)
    have hb := step1 b (by simp)
    have r1 := S 0 _ a fl n0 hc
    have r2 := S 1 _ b _ n1 r1.cnt
    have eL : (q.loop 0 [a, b] fl).2 = q.step b (q.step a fl) := by simp [Quad.loop, (ha fl).1, (ha fl).2, (hb (q.step a fl)).1, (hb fl).2]
    refine ⟨_, by simp [Quad.loop, (ha fl).2, (hb fl).2], by rw [eL]; exact (r1.trans r2).list, ?_, ?_⟩
    · intro s
      rw [List.reverse_append, look_append, rv, rv, look_mapConst, look_mapConst,
        if_pos (List.mem_reverse.2 (mem0 s))]
      cases s <;> simp [sideValue, (injk .top .left (by decide)), (injk .top .right (by decide)),
        (injk .bottom .left (by decide)), (injk .bottom .right (by decide))]
    · intro k hk
      rw [List.reverse_append, look_append, rv, rv, look_mapConst, look_mapConst,
        if_neg (fun h => nmem0 k hk (List.mem_reverse.1 h))]
      have hk' : ∀ s, k ≠ name s := fun s e => hk s e.symm
      simp [hk']
  | [a, b, c], _, _ =>
    have ha := step1 a (by simp)
    have hb := step1 b (by simp)
    have hc' := step1 c (by simp)
    have r1 := S 0 _ a fl n0 hc
    have r2 := S 1 _ b _ n1 r1.cnt
    have r3 := S 2 _ c _ n2 r2.cnt
    have eL : (q.loop 0 [a, b, c] fl).2 = q.step c (q.step b (q.step a fl)) := by
      simp [Quad.loop, (ha fl).1, (ha fl).2, (hb (q.step a fl)).1, (hb fl).2, (hc' (q.step b (q.step a fl))).1, (hc' fl).2]
    refine ⟨_, by simp [Quad.loop, (ha fl).2, (hb fl).2, (hc' fl).2], by rw [eL]; exact ((r1.trans r2).trans r3).list, ?_, ?_⟩
    · intro s
      rw [List.reverse_append, List.reverse_append, look_append, look_append, rv, rv, rv, look_mapConst, look_mapConst,
        look_mapConst, if_pos (List.mem_reverse.2 (mem0 s))]
      cases s <;> simp [sideValue, (injk .top .left (by decide)), (injk .top .right (by decide)),
        (injk .top .bottom (by decide)), (injk .left .bottom (by decide)), (injk .right .bottom (by decide)),
        (injk .bottom .left (by decide)), (injk .bottom .right (by decide))]
    · intro k hk
      rw [List.reverse_append, List.reverse_append, look_append, look_append, rv, rv, rv, look_mapConst, look_mapConst,
        look_mapConst, if_neg (fun h => nmem0 k hk (List.mem_reverse.1 h))]
      have hk' : ∀ s, k ≠ name s := fun s e => hk s e.symm
      simp [hk']
  | [a, b, c, d], _, _ =>
    have ha := step1 a (by simp)
    have hb := step1 b (by simp)
    have hc' := step1 c (by simp)
    have hd := step1 d (by simp)
    have r1 := S 0 _ a fl n0 hc
    have r2 := S 1 _ b _ n1 r1.cnt
    have r3 := S 2 _ c _ n2 r2.cnt
    have r4 := S 3 _ d _ n3 r3.cnt
    have eL : (q.loop 0 [a, b, c, d] fl).2 = q.step d (q.step c (q.step b (q.step a fl))) := by
      simp [Quad.loop, (ha fl).1, (ha fl).2, (hb (q.step a fl)).1, (hb fl).2, (hc' (q.step b (q.step a fl))).1,
        (hc' fl).2, (hd (q.step c (q.step b (q.step a fl)))).1, (hd fl).2]
    refine ⟨_, by simp [Quad.loop, (ha fl).2, (hb fl).2, (hc' fl).2, (hd fl).2], by rw [eL]; exact (((r1.trans r2).trans r3).trans r4).list, ?_, ?_⟩
    · intro s
      rw [List.reverse_append, List.reverse_append, List.reverse_append, look_append, look_append, look_append, rv, rv,
        rv, rv, look_mapConst, look_mapConst, look_mapConst, look_mapConst, if_pos (List.mem_reverse.2 (mem0 s))]
      cases s <;> simp [sideValue, (injk .top .left (by decide)), (injk .top .right (by decide)),
        (injk .top .bottom (by decide)), (injk .left .bottom (by decide)), (injk .right .bottom (by decide)),
        (injk .bottom .left (by decide)), (injk .bottom .right (by decide)), (injk .right .left (by decide))]
    · intro k hk
      rw [List.reverse_append, List.reverse_append, List.reverse_append, look_append, look_append, look_append, rv, rv,
        rv, rv, look_mapConst, look_mapConst, look_mapConst, look_mapConst,
        if_neg (fun h => nmem0 k hk (List.mem_reverse.1 h))]
      have hk' : ∀ s, k ≠ name s := fun s e => hk s e.symm
      simp [hk']

  | _ :: _ :: _ :: _ :: _ :: r, _, h4 => simp at h4

/-- C48 for the shorthands whose longhands are listed bottom, left, right, top (`margin`, `padding`, `border-style`,
and, with corners for sides, `border-radius`) and whose grammar matches a value in one way: given one to four values,
the sides get the values CSS says, and nothing else is set.  Missing: the other shorthands, the CSS-wide keywords and
values with `var()`, which go wrong: see the theorems named `_violated`. -/
theorem C48_partial (q : Quad) (name : Side → Str) (hi : ∀ s t, name s = name t → s = t)
    (ho : BoxOrder name q.order) (hg : q.group = true) (v : Val) (h1 : 1 ≤ v.slice.length) (h4 : v.slice.length ≤ 4)
    (hv : ∀ x ∈ v.slice, q.OneWay x) (hf : isFree v.slice = false) :
    (Definition.quad q).valid v ∧ (∀ s, look ((Definition.quad q).sets v) (name s) = sideValue v.slice s) ∧
    (∀ s, (sideValue v.slice s).isSome = true) ∧
    ∀ k, (∀ s, name s ≠ k) → look ((Definition.quad q).sets v) k = Option.none := by
  obtain ⟨ins, r1, r2, r3, r4⟩ := quad_ran q name hi ho hg v.slice h1 h4 hv .new (by simp [cnt, FixList.new, look])
  have e : (Definition.quad q).run v.slice .new = q.loop 0 v.slice .new := by simp [Definition.run, hf]
  have hl : ∀ k, look ((Definition.quad q).sets v) k = look ins.reverse k := by
    intro k
    unfold Definition.sets
    rw [look_mapVal, e, r2, look_insL (declOf_tied .new)]
    cases look ins.reverse k <;> simp [FixList.new, look, keep, FixList.declOf]
  refine ⟨by rw [Definition.valid, e, r1], fun s => by rw [hl, r3], ?_, fun k hk => by rw [hl, r4 k hk]⟩
  intro s
  revert h1 h4
  generalize v.slice = vs
  intro h1 h4
  match vs, h1, h4 with
  | [a], _, _ => rfl
  | [a, b], _, _ => cases s <;> rfl
  | [a, b, c], _, _ => cases s <;> rfl
  | [a, b, c, d], _, _ => cases s <;> rfl
  | _ :: _ :: _ :: _ :: _ :: r, _, h4 => simp at h4

/-- names of the sides of `margin` -/
def marginName : Side → Str
  | .top => "margin-top".toList
  | .right => "margin-right".toList
  | .bottom => "margin-bottom".toList
  | .left => "margin-left".toList

/-- the hypotheses are met by `margin: 1px auto 0` -/
example : (∀ s t, marginName s = marginName t → s = t) ∧ BoxOrder marginName marginQuad.order ∧
    marginQuad.group = true ∧ (∀ x ∈ (Val.list [.unit 1 "px".toList, .str "auto".toList, .zero]).slice, marginQuad.OneWay x) ∧
    isFree (Val.list [.unit 1 "px".toList, .str "auto".toList, .zero]).slice = false := by
  refine ⟨?_, Or.inl rfl, rfl, ?_, rfl⟩
  · intro s t; cases s <;> cases t <;> decide
  · intro x hx
    have : x = .unit 1 "px".toList ∨ x = .str "auto".toList ∨ x = .zero := by simpa [Val.slice] using hx
    rcases this with rfl | rfl | rfl <;> rfl

/-- C48 up to the cascade: a single shorthand declaration gives every side its value. -/
theorem C48_cascaded_partial (e : Env) (nest : Nat) (a : Applied) (q : Quad) (name : Side → Str)
    (hd : FlatDefs e.defs) (ha : e.defs a.decl.property = some (.quad q)) (hcu : isCustom a.decl.property = false)
    (hco : a.decl.property ≠ "content".toList)
    (hi : ∀ s t, name s = name t → s = t) (hne : ∀ s, name s ≠ a.decl.property)
    (ho : BoxOrder name q.order) (hg : q.group = true)
    (h1 : 1 ≤ (e.prep a.decl.value).slice.length) (h4 : (e.prep a.decl.value).slice.length ≤ 4)
    (hv : ∀ x ∈ (e.prep a.decl.value).slice, q.OneWay x) (hf : isFree (e.prep a.decl.value).slice = false) (s : Side) :
    ∃ w, sideValue (e.prep a.decl.value).slice s = some w ∧
      cascaded (compute e nest [a]) (name s) = some ⟨w, a.origin, a.decl.important, a.spec⟩ := by
  obtain ⟨p1, p2, p3, _⟩ := C48_partial q name hi ho hg _ h1 h4 hv hf
  obtain ⟨w, hw⟩ := Option.isSome_iff_exists.1 (p3 s)
  refine ⟨w, hw, ?_⟩
  have as : assignments e (name s) [a] = [(true, a.decl' w)] := by
    simp only [assignments, List.flatMap_cons, List.flatMap_nil, List.append_nil, assigned, hcu, ha]
    rw [if_neg (by simp), if_neg hco, if_pos p1, if_neg (fun h => hne s h.symm), List.nil_append]
    have hs : look ((Definition.quad q).sets (e.prep a.decl.value)) (name s) = some w := by rw [p2, hw]
    have hn := nk_sets (.quad q) (e.prep a.decl.value)
    revert hs hn
    generalize (Definition.quad q).sets (e.prep a.decl.value) = l
    intro hs hn
    have : ((l.filter fun x => x.1 = name s).map fun x => (true, a.decl' x.2)) =
        ((l.filter fun x => x.1 = name s).map fun x => a.decl' x.2).map fun d => (true, d) := by simp
    rw [this, filter_look l (name s) hn, hs]
    rfl
  refine (C44_partial e nest [a] (name s) hd ?_ ?_ _).2 ?_
  · intro b hb df hdf hval
    simp at hb; subst hb
    rw [ha] at hdf; cases hdf
    exact absurd p1 hval
  · rw [as]
    intro x d m y b h
    rcases x with _ | ⟨_, x⟩
    · rcases m with _ | ⟨_, m⟩ <;> simp at h
    · simp at h
  · rw [as]
    exact ⟨[], [], rfl, by simp, by simp⟩

/-- the hypotheses are met by `margin: 0` -/
example : marginEnv.defs (author ⟨0, 1, 0⟩ "margin" .zero).decl.property = some (.quad marginQuad) ∧
    isCustom (author ⟨0, 1, 0⟩ "margin" .zero).decl.property = false ∧
    (author ⟨0, 1, 0⟩ "margin" .zero).decl.property ≠ "content".toList ∧
    (∀ s, marginName s ≠ (author ⟨0, 1, 0⟩ "margin" .zero).decl.property) ∧ isFree (marginEnv.prep .zero).slice = false ∧
    ∀ x ∈ (marginEnv.prep .zero).slice, marginQuad.OneWay x := by
  refine ⟨rfl, rfl, by decide, ?_, rfl, ?_⟩
  · intro s; cases s <;> decide
  · intro x hx
    have : x = .zero := by simpa [Val.slice, marginEnv] using hx
    subst this; rfl

/-- `border-width`, whose longhands are listed top, right, bottom, left -/
def borderWidthQuad : Quad :=
  ⟨"border-width".toList, ["border-top-width".toList, "border-right-width".toList, "border-bottom-width".toList,
    "border-left-width".toList], [isLen], true⟩

/-- C48 fails for `border-width` (and `inset` and `corner-shape`) because of the order: `border-width: 1px 2px`
makes the bottom border 2px and the left one 1px. -/
theorem C48_order_violated :
    let v : Val := .list [.unit 1 "px".toList, .unit 2 "px".toList]
    look ((Definition.quad borderWidthQuad).sets v) "border-bottom-width".toList = some (.unit 2 "px".toList) ∧
    sideValue v.slice .bottom = some (.unit 1 "px".toList) ∧
    look ((Definition.quad borderWidthQuad).sets v) "border-left-width".toList = some (.unit 1 "px".toList) ∧
    sideValue v.slice .left = some (.unit 2 "px".toList) := ⟨rfl, rfl, rfl, rfl⟩

/-- C48 fails where two alternatives match: `border-color` is `[ <color> | <image-1D> ]{1,4}`, everything is taken
for an `<image-1D>`, and every colour counts twice.  With `red blue` top and right are blue. -/
theorem C48_twice_violated :
    let q : Quad := ⟨"border-color".toList, ["border-bottom-color".toList, "border-left-color".toList,
      "border-right-color".toList, "border-top-color".toList], [fun _ => true, fun _ => true], true⟩
    let v : Val := .list [.color "red".toList, .color "blue".toList]
    ((Definition.quad q).sets v).map (·.2) =
      [.color "blue".toList, .color "blue".toList, .color "red".toList, .color "red".toList] ∧
    look ((Definition.quad q).sets v) "border-bottom-color".toList = some (.color "blue".toList) ∧
    sideValue v.slice .bottom = some (.color "red".toList) := ⟨rfl, rfl, rfl⟩

/-- C48 fails for grammars that are not groups, such as `scroll-margin`'s `<length>{1,4}`, and for the CSS-wide
keywords: nothing is set. -/
theorem C48_unexpanded_violated :
    (∀ (q : Quad) (v : Val), q.group = false → (Definition.quad q).sets v = []) ∧
    (Definition.quad marginQuad).valid .inherit ∧ (Definition.quad marginQuad).sets .inherit = [] ∧
    (Definition.quad ⟨"scroll-margin".toList, marginQuad.order, [isLen], false⟩).valid (.unit 1 "px".toList) := by
  refine ⟨?_, rfl, rfl, rfl⟩
  intro q v hg
  have st : ∀ (w : Val) (fl : FixList), q.stepAll w fl = fl := fun w fl => by simp [Quad.stepAll, hg]
  have lp : ∀ (r : List Val) (k : Nat) (fl : FixList), (q.loop k r fl).2 = fl := by
    intro r
    induction r with
    | nil => intro k fl; rfl
    | cons a r ih =>
      intro k fl
      simp only [Quad.loop, st]
      split
      · rfl
      · split
        · rfl
        · split
          · rfl
          · exact ih _ _
  simp only [Definition.sets, Definition.run]
  split
  · simp [FixList.new]
  · simp [lp, FixList.new]

/-! ## C64: declarations that are not valid -/

/-- C64 where nothing was matched: a declaration that is not valid, of a property other than `background`, changes
the value of no property, whatever stands before and after it.  Missing: declarations whose beginning matches, which
go wrong (`C64_violated`), and shorthands that set shorthands. -/
theorem C64_partial (e : Env) (nest : Nat) (a : Applied) (l m : List Applied) (df : Definition) (hd : FlatDefs e.defs)
    (ha : e.defs a.decl.property = some df) (hv : ¬ df.valid (e.prep a.decl.value))
    (hb : a.decl.property ≠ "background".toList) (hco : a.decl.property ≠ "content".toList)
    (hc : RejectsClean e (l ++ a :: m)) (p : Str) :
    cascaded (compute e nest (l ++ a :: m)) p = cascaded (compute e nest (l ++ m)) p := by
  have hnil : assigned e p a = [] := by
    by_cases h : isCustom a.decl.property = true
    · simp [assigned, h]
    · simp only [assigned]
      rw [if_neg h, if_neg hco, ha]
      simp only []
      rw [if_neg hv]
      rw [show recovered e a (e.prep a.decl.value) = [] from if_neg hb]
      rfl
  have eq : assignments e p (l ++ a :: m) = assignments e p (l ++ m) := by
    simp [assignments, hnil]
  have key : ∀ k, RejectsClean e k → got (compute e nest k) p =
      directs (assignments e p k) ++ (maxLast (vias (assignments e p k)) Option.none).toList := by
    intro k hk
    have h := held_all hd k hk
    have hr := resolveNested_flat e.defs nest (k.foldl (addDecl e) ⟨[], .new⟩).fix
      (fun n hn => h.flat n ((mem_keys_iff _ n).1 hn))
    simp only [compute]
    rw [hr, applyFix, got_applyFix _ _ h.nk, h.direct, h.via]
  have hc' : RejectsClean e (l ++ m) := fun b hb => hc b (by
    rcases List.mem_append.1 hb with h | h
    · simp [h]
    · simp [h])
  show maxLast (got _ p) Option.none = maxLast (got _ p) Option.none
  rw [key _ hc, key _ hc', eq]

/-- nothing is set by a rejected value of a longhand, or of a box shorthand if the first of its values does not
match -/
theorem C64_clean (v : Val) :
    (∀ valid : List Val → Bool, (Definition.plain valid).sets v = []) ∧
    (∀ (q : Quad) (x : Val) (r : List Val), v.slice = x :: r → (∀ t ∈ q.alts, t x = false) →
      (Definition.quad q).sets v = []) := by
  refine ⟨fun valid => sets_plain valid v, ?_⟩
  intro q x r hx ht
  simp only [Definition.sets, Definition.run, hx]
  split
  · simp [FixList.new]
  · have : q.accepts x = false := by
      rw [Quad.accepts, ← Bool.not_eq_true, List.any_eq_true]
      rintro ⟨t, h1, h2⟩
      rw [ht t h1] at h2
      cases h2
    simp [Quad.loop, this, FixList.new]

/-- which declarations are valid: those accepted without a look at the grammar, and those that match it; for a box
shorthand, one to four values each of which some alternative accepts -/
theorem C64_valid (v : Val) :
    (∀ ok : List Val → Bool, (Definition.plain ok).valid v ↔ isFree v.slice = true ∨ ok v.slice = true) ∧
    (∀ q : Quad, (Definition.quad q).valid v ↔ isFree v.slice = true ∨
      (1 ≤ v.slice.length ∧ v.slice.length ≤ 4 ∧ ∀ x ∈ v.slice, ∃ t ∈ q.alts, t x = true)) ∧
    (∀ run : List Val → Bool × List (Str × Val), (Definition.other run).valid v ↔
      isFree v.slice = true ∨ (run v.slice).1 = true) := by
  have acc : ∀ (q : Quad) (x : Val), q.accepts x = true ↔ ∃ t ∈ q.alts, t x = true := by
    intro q x; simp [Quad.accepts]
  have lp : ∀ (q : Quad) (r : List Val) (k : Nat) (fl : FixList), k < 4 → ((q.loop k r fl).1 = true ↔
      1 ≤ r.length ∧ k + r.length ≤ 4 ∧ ∀ x ∈ r, ∃ t ∈ q.alts, t x = true) := by
    intro q r
    induction r with
    | nil => intro k fl hk; simp [Quad.loop]
    | cons a r ih =>
      intro k fl hk
      simp only [Quad.loop]
      by_cases ha : q.accepts a = true
      · simp only [ha, Bool.not_true, Bool.false_eq_true, if_false]
        cases r with
        | nil =>
          have := (acc q a).1 ha
          simp [this]
          omega
        | cons b r =>
          simp only [List.isEmpty_cons, Bool.false_eq_true, if_false]
          by_cases h4 : k + 1 = 4
          · simp only [h4, if_true, Bool.false_eq_true, List.length_cons, false_iff]
            omega
          · rw [if_neg h4, ih (k + 1) _ (by omega)]
            have := (acc q a).1 ha
            simp only [List.length_cons, List.mem_cons, forall_eq_or_imp, this, true_and]
            constructor <;> rintro ⟨h1, h2, h3⟩ <;> exact ⟨by omega, by omega, h3⟩
      · have hf : q.accepts a = false := by simpa using ha
        simp only [hf, Bool.not_false, if_true, Bool.false_eq_true, false_iff]
        rintro ⟨_, _, h⟩
        exact ha ((acc q a).2 (h a (by simp)))
  refine ⟨fun ok => ?_, fun q => ?_, fun run => ?_⟩
  · simp only [Definition.valid, Definition.run]
    by_cases hf : isFree v.slice = true <;> simp [hf]
  · simp only [Definition.valid, Definition.run]
    by_cases hf : isFree v.slice = true
    · simp [hf]
    · simp only [hf, Bool.false_eq_true, if_false, false_or]
      rw [lp q v.slice 0 .new (by omega)]
      simp
  · simp only [Definition.valid, Definition.run]
    by_cases hf : isFree v.slice = true <;> simp [hf]

/-- the hypotheses of `C64_partial` are met by `margin: red 1px` -/
example : marginEnv.defs (author ⟨0, 1, 0⟩ "margin" (.list [.str "red".toList, .zero])).decl.property = some (.quad marginQuad) ∧
    ¬ (Definition.quad marginQuad).valid (.list [.str "red".toList, .zero]) ∧
    RejectsClean marginEnv ([author ⟨0, 1, 0⟩ "margin-top" .zero] ++
      author ⟨0, 1, 0⟩ "margin" (.list [.str "red".toList, .zero]) :: []) := by
  refine ⟨rfl, by unfold Definition.valid; exact Bool.false_ne_true, ?_⟩
  intro a ha df hdf hv
  simp at ha
  rcases ha with rfl | rfl
  · cases hdf; exact sets_plain _ _
  · cases hdf; rfl

/-- C64 fails when the first values match: `margin: 1px red` is not valid, but it overrides `margin-top: 3px`, and so
does `margin: 1px 1px 1px 1px 1px`. -/
theorem C64_violated :
    let l := [author ⟨0, 1, 0⟩ "margin-top" (.unit 3 "px".toList)]
    let bad := [author ⟨0, 1, 0⟩ "margin" (.list [.unit 1 "px".toList, .color "red".toList]),
      author ⟨0, 1, 0⟩ "margin" (.list (List.replicate 5 (.unit 1 "px".toList)))]
    (∀ a ∈ bad, ¬ (Definition.quad marginQuad).valid a.decl.value ∧
      cascaded (compute marginEnv 5 (l ++ [a])) "margin-top".toList = some ⟨.unit 1 "px".toList, .author, false, ⟨0, 1, 0⟩⟩) ∧
    cascaded (compute marginEnv 5 l) "margin-top".toList = some ⟨.unit 3 "px".toList, .author, false, ⟨0, 1, 0⟩⟩ := by
  refine ⟨?_, rfl⟩
  intro a ha
  simp at ha
  rcases ha with rfl | rfl
  · exact ⟨by unfold Definition.valid; exact Bool.false_ne_true, rfl⟩
  · exact ⟨by unfold Definition.valid; exact Bool.false_ne_true, rfl⟩

/-! ## C47: custom properties -/

theorem look_customFold (l : List Applied) (name : Str) (hn : isCustom name = true) : ∀ (m : List (Str × Val)),
    look (l.foldl (fun m a => if isCustom a.decl.property then put m a.decl.property a.decl.value else m) m) name =
      (match ((l.filter fun a => a.decl.property = name).map fun a => a.decl' a.decl.value).getLast? with
        | some d => some d.value
        | Option.none => look m name) := by
  induction l using List.reverseRecOn with
  | nil => intro m; rfl
  | append_singleton r x ih =>
    intro m
    rw [List.foldl_append, List.filter_append, List.map_append]
    simp only [List.foldl_cons, List.foldl_nil]
    by_cases h : x.decl.property = name
    · rw [h, if_pos hn, look_put, if_pos rfl]
      simp [h, Applied.decl']
    · have e : look (if isCustom x.decl.property = true then
          put (r.foldl (fun m a => if isCustom a.decl.property then put m a.decl.property a.decl.value else m) m)
            x.decl.property x.decl.value else
          r.foldl (fun m a => if isCustom a.decl.property then put m a.decl.property a.decl.value else m) m) name =
          look (r.foldl (fun m a => if isCustom a.decl.property then put m a.decl.property a.decl.value else m) m) name := by
        split
        · rw [look_put, if_neg h]
        · rfl
      rw [e, ih]
      simp [h]

theorem look_customOn (v : View) (sheets : List Sheet) (m : List (Str × Val)) (x : Nat) (name : Str)
    (hn : isCustom name = true) : look (customOn v sheets m x) name =
      (match (customDecls v sheets x name).getLast? with
        | some d => some d.value
        | Option.none => look m name) := look_customFold _ _ hn _

theorem getLast_wins {l : List Decl} (h : AllTied l) (d : Decl) : l.getLast? = some d ↔ Wins l d := by
  induction l using List.reverseRecOn with
  | nil =>
    constructor
    · intro h; simp at h
    · rintro ⟨a, b, h, _⟩; simp at h
  | append_singleton r x ih =>
    have wx : Wins (r ++ [x]) x := ⟨r, [], rfl, fun e he => (h x (by simp) e (by simp [he])).1, by simp⟩
    constructor
    · intro hl; simp at hl; subst hl; exact wx
    · intro hw
      have := C44_choice_unique wx hw
      subst this
      simp

/-- C47 as long as the declarations of the property on one element are equally strong: the value of a custom
property is that of the winning declaration on the nearest element that has one, and `var()` gives it.  Missing:
declarations of different strength on one element, fallbacks, and `var()` in the value, which go wrong. -/
theorem C47_partial (v : View) (sheets : List Sheet) (x : Nat) (name : Str) (hn : isCustom name = true)
    (ht : ∀ y ∈ x :: v.anc x, AllTied (customDecls v sheets y name)) (w : Val) :
    look (customProps v x sheets) name = some w ↔ CustomValue v sheets x name w := by
  unfold customProps CustomValue
  revert ht
  generalize x :: v.anc x = chain
  intro ht
  induction chain with
  | nil =>
    constructor
    · intro h; simp [look] at h
    · rintro ⟨a, y, b, h, _⟩; simp at h
  | cons y r ih =>
    have ihr := ih fun z hz => ht z (by simp [hz])
    rw [List.reverse_cons, List.foldl_append]
    simp only [List.foldl_cons, List.foldl_nil]
    rw [look_customOn _ _ _ _ _ hn]
    cases hl : (customDecls v sheets y name).getLast? with
    | some d =>
      have hw := (getLast_wins (ht y (by simp)) d).1 hl
      constructor
      · intro h
        exact ⟨[], y, r, rfl, by simp, d, hw, by simpa using h⟩
      · rintro ⟨a, z, b, he, ha, d', hd', rfl⟩
        rcases a with _ | ⟨z', a⟩
        · simp at he
          obtain ⟨rfl, rfl⟩ := he
          rw [C44_choice_unique hw hd']
        · simp at he
          obtain ⟨rfl, rfl⟩ := he
          have := ha y (by simp)
          rw [this] at hl
          simp at hl
    | none =>
      have hem : customDecls v sheets y name = [] := List.getLast?_eq_none_iff.1 hl
      simp only []
      rw [ihr]
      constructor
      · rintro ⟨a, z, b, he, ha, h⟩
        refine ⟨y :: a, z, b, by simp [he], ?_, h⟩
        intro t ht'
        rcases List.mem_cons.1 ht' with rfl | ht'
        · exact hem
        · exact ha t ht'
      · rintro ⟨a, z, b, he, ha, d', hd', hv⟩
        rcases a with _ | ⟨z', a⟩
        · simp at he
          obtain ⟨rfl, rfl⟩ := he
          rw [hem] at hd'
          obtain ⟨a', b', h', _⟩ := hd'
          simp at h'
        · simp at he
          obtain ⟨rfl, rfl⟩ := he
          exact ⟨a, z, b, rfl, fun t ht' => ha t (by simp [ht']), d', hd', hv⟩

/-- C47: `var(--name)` gives the value, if there is one -/
theorem C47_var_partial (v : View) (sheets : List Sheet) (x : Nat) (name : Str) (rest : List Val) (hn : isCustom name = true)
    (ht : ∀ y ∈ x :: v.anc x, AllTied (customDecls v sheets y name)) (w : Val) (h : CustomValue v sheets x name w) :
    resolveVar (.str name :: rest) (customProps v x sheets) = [w] := by
  have := (C47_partial v sheets x name hn ht w).2 h
  simp [resolveVar, nameOf, this]

/-- a rule with one selector -/
def rule (sel : List Simple) (p : String) (v : Val) (imp : Bool := false) : Rule :=
  ⟨[[sel.map .simple]], [⟨p.toList, v, imp⟩]⟩

theorem applied_rule (v : View) (x : Nat) (o : Origin) (sel : List Simple) (p : String) (w : Val) (imp : Bool) :
    Rule.applied v x Option.none o (rule sel p w imp) =
      if matchParts v Option.none x (sel.map .simple) then
        [⟨o, specificity (sel.map .simple), ⟨p.toList, w, imp⟩⟩] else [] := by
  simp only [Rule.applied, rule, List.flatMap_cons, List.flatMap_nil, List.append_nil, matchSelector, targets,
    Bool.true_and, List.map_cons, List.map_nil]
  cases matchParts v Option.none x (sel.map .simple) <;> rfl

/-- `a { --c: 1 } b { --c: 2 }` -/
def tieSheet : Sheet := ⟨.author, [rule [.type "a".toList] "--c" (.num 1), rule [.type "b".toList] "--c" (.num 2)]⟩

/-- the hypotheses are met, and the innermost element gets the value from the `b` above it -/
example : isCustom "--c".toList = true ∧
    (∀ y ∈ 5 :: nest.anc 5, AllTied (customDecls nest [tieSheet] y "--c".toList)) ∧
    look (customProps nest 5 [tieSheet]) "--c".toList = some (.num 2) := by
  have hm : ∀ y ∈ 5 :: nest.anc 5, matchParts nest Option.none y [.simple (.type "a".toList)] = decide (y = 2) ∧
      matchParts nest Option.none y [.simple (.type "b".toList)] = decide (y = 3 ∨ y = 4) := by decide +kernel
  have hap : ∀ y ∈ 5 :: nest.anc 5, applied nest y Option.none [tieSheet] =
      (if y = 2 then [⟨.author, ⟨0, 0, 1⟩, ⟨"--c".toList, .num 1, false⟩⟩] else []) ++
      (if y = 3 ∨ y = 4 then [⟨.author, ⟨0, 0, 1⟩, ⟨"--c".toList, .num 2, false⟩⟩] else []) := by
    intro y hy
    obtain ⟨h1, h2⟩ := hm y hy
    simp only [applied, tieSheet, List.flatMap_cons, List.flatMap_nil, List.append_nil, applied_rule, List.map_cons,
      List.map_nil, h1, h2, decide_eq_true_eq]
    rfl
  refine ⟨rfl, ?_, ?_⟩
  · intro y hy
    unfold customDecls
    rw [hap y hy]
    split <;> split <;> (try omega) <;> intro d hd e he <;> simp at hd he <;> obtain ⟨_, rfl⟩ := hd <;>
      obtain ⟨_, rfl⟩ := he <;> simp [Tied, Weaker, Decl.level, Spec3.Less, Applied.decl']
  · have hc : nest.anc 5 = [4, 3, 2, 1, 0] := by decide +kernel
    have h5 := hap 5 (by simp)
    have h4 := hap 4 (by simp [hc])
    have h3 := hap 3 (by simp [hc])
    have h2 := hap 2 (by simp [hc])
    have h1 := hap 1 (by simp [hc])
    have h0 := hap 0 (by simp [hc])
    simp only [customProps, hc, List.reverse_cons, List.reverse_nil, List.nil_append, List.cons_append, List.foldl_cons,
      List.foldl_nil, customOn, h0, h1, h2, h3, h4, h5]
    rfl

/-- `b.k { --c: 1 } b { --c: 2 }` -/
def strongSheet : Sheet :=
  ⟨.author, [rule [.type "b".toList, .cls "k".toList] "--c" (.num 1), rule [.type "b".toList] "--c" (.num 2)]⟩

/-- C47 fails: the last declaration is taken, whatever its specificity or importance. -/
theorem C47_strength_violated :
    look (customProps nest 4 [strongSheet]) "--c".toList = some (.num 2) ∧
    CustomValue nest [strongSheet] 4 "--c".toList (.num 1) := by
  have hm : ∀ y ∈ 4 :: nest.anc 4, matchParts nest Option.none y [.simple (.type "b".toList), .simple (.cls "k".toList)] = decide (y = 4) ∧
      matchParts nest Option.none y [.simple (.type "b".toList)] = decide (y = 3 ∨ y = 4) := by decide +kernel
  have hap : ∀ y ∈ 4 :: nest.anc 4, applied nest y Option.none [strongSheet] =
      (if y = 4 then [⟨.author, ⟨0, 1, 1⟩, ⟨"--c".toList, .num 1, false⟩⟩] else []) ++
      (if y = 3 ∨ y = 4 then [⟨.author, ⟨0, 0, 1⟩, ⟨"--c".toList, .num 2, false⟩⟩] else []) := by
    intro y hy
    obtain ⟨h1, h2⟩ := hm y hy
    simp only [applied, strongSheet, List.flatMap_cons, List.flatMap_nil, List.append_nil, applied_rule, List.map_cons,
      List.map_nil, h1, h2, decide_eq_true_eq]
    rfl
  have hc : nest.anc 4 = [3, 2, 1, 0] := by decide +kernel
  have h4 := hap 4 (by simp)
  constructor
  · have h3 := hap 3 (by simp [hc])
    have h2 := hap 2 (by simp [hc])
    have h1 := hap 1 (by simp [hc])
    have h0 := hap 0 (by simp [hc])
    simp only [customProps, hc, List.reverse_cons, List.reverse_nil, List.nil_append, List.cons_append, List.foldl_cons,
      List.foldl_nil, customOn, h0, h1, h2, h3, h4]
    rfl
  · refine ⟨[], 4, nest.anc 4, rfl, by simp, ⟨.num 1, .author, false, ⟨0, 1, 1⟩⟩, ?_, rfl⟩
    unfold customDecls
    rw [h4]
    exact (C44_choice _ _).1 rfl

/-- C47 fails for fallbacks: the parser keeps the comma of `var(--x, red)` among the arguments, and the comma is what
is used. -/
theorem C47_fallback_violated :
    resolveVar [.str "--x".toList, .comma, .str "red".toList] [] = [.comma] := rfl

end Verif.Cascade
