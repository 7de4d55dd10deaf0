import Verif.Cascade.Lemmas2

/-!
# C44, C47, C48 and C64
-/
set_option linter.unusedVariables false
set_option linter.unusedSimpArgs false
namespace Verif.Cascade
open Verif Verif.Map Verif.Select

/-! ## C44: the winning declaration -/

/-- C44, the choice itself: among any declarations recorded for a property, in any order, the one taken is the one
that CSS's origin, importance, specificity and order of appearance single out. -/
theorem C44_choice (l : List Decl) (d : Decl) : maxLast l Option.none = some d ↔ Wins l d := maxLast_iff l d

example : Wins [⟨.zero, .author, false, ⟨0, 1, 0⟩⟩, ⟨.none, .userAgent, true, ⟨0, 0, 1⟩⟩, ⟨.inherit, .author, true, ⟨1, 0, 0⟩⟩]
    ⟨.none, .userAgent, true, ⟨0, 0, 1⟩⟩ := (C44_choice _ _).1 rfl

/-- at most one declaration wins -/
theorem C44_choice_unique {l : List Decl} {d e : Decl} (h : Wins l d) (k : Wins l e) : d = e := by
  rw [← maxLast_iff] at h k
  rw [h] at k
  exact Option.some.inj k

/-- one does, if there is any -/
theorem C44_choice_exists {l : List Decl} (h : l ≠ []) : ∃ d, Wins l d := by
  cases l with
  | nil => exact absurd rfl h
  | cons x r =>
    rw [show (∃ d, Wins (x :: r) d) ↔ ∃ d, maxLast (x :: r) Option.none = some d from
      ⟨fun ⟨d, h⟩ => ⟨d, (maxLast_iff _ _).2 h⟩, fun ⟨d, h⟩ => ⟨d, (maxLast_iff _ _).1 h⟩⟩]
    rw [maxLast_cons, maxLast_acc]
    cases maxLast r Option.none <;> simp [join]

example : ([⟨.zero, .author, false, ⟨0, 1, 0⟩⟩] : List Decl) ≠ [] := by simp

/-- C44 for everything that applies to a node, shorthands included.  Missing: shorthands that set shorthands, rejected
declarations that leave traces, and longhand declarations that follow an equally strong shorthand; all three go
wrong, see the theorems named `_violated`. -/
theorem C44_partial (e : Env) (nest : Nat) (l : List Applied) (p : Str) (hd : FlatDefs e.defs) (hc : RejectsClean e l)
    (ht : NoLateTie (assignments e p l)) (d : Decl) :
    cascaded (compute e nest l) p = some d ↔ Wins ((assignments e p l).map (·.2)) d := by
  rw [compute_wins nest hd l hc p ht, maxLast_iff]

/-- what CSS says of a single author declaration list without `!important` -/
def author (sp : Spec3) (p : String) (v : Val) (imp : Bool := false) : Applied := ⟨.author, sp, ⟨p.toList, v, imp⟩⟩

/-- lengths and the keyword `auto` -/
def isLen : Val → Bool
  | .zero => true
  | .unit _ _ => true
  | _ => false
/-- see `isLen` -/
def isAuto : Val → Bool
  | .str s => decide (s = "auto".toList)
  | _ => false

/-- `margin`, `definitions_properties.json`: the order is that of its `computed` list -/
def marginQuad : Quad :=
  ⟨"margin".toList, ["margin-bottom".toList, "margin-left".toList, "margin-right".toList, "margin-top".toList],
    [isLen, isAuto], true⟩

/-- some definitions -/
def marginDefs : Defs := fun p =>
  if p = "margin".toList then some (.quad marginQuad)
  else if p = "margin-top".toList then some (.plain fun v => v.length == 1 && v.all isLen)
  else Option.none

/-- with these the values are used as they are -/
def marginEnv : Env := ⟨marginDefs, id, fun _ => []⟩

theorem sets_quad_names (q : Quad) (v : Val) : ∀ n w, (n, w) ∈ (Definition.quad q).sets v → n ∈ q.order := by
  -- every step inserts under names taken from the order
  have names : ∀ k ns, quadNames q.order k = some ns → ∀ n ∈ ns, n ∈ q.order := by
    intro k ns h n hn
    match k, h with
    | 0, h => simp [quadNames] at h; rw [h]; exact hn
    | 1, h =>
      simp only [quadNames] at h
      split at h
      · cases h; exact List.mem_of_mem_drop (List.mem_of_mem_take hn)
      · cases h
    | 2, h =>
      simp only [quadNames] at h
      cases ho : q.order with
      | nil => rw [ho] at h; simp at h
      | cons a r => rw [ho] at h; simp at h; subst h; simp at hn; subst hn; simp
    | 3, h =>
      simp only [quadNames] at h
      cases ho : q.order[1]? with
      | none => rw [ho] at h; simp at h
      | some a => rw [ho] at h; simp at h; subst h; simp at hn; subst hn; exact List.mem_of_getElem? ho
    | _ + 4, h => simp [quadNames] at h
  have insl : ∀ (mk : Val → Decl) (ins : List (Str × Val)) (l : List (Str × Decl)),
      (∀ x ∈ ins, x.1 ∈ q.order) → (∀ x ∈ l.map (·.1), x ∈ q.order) → ∀ x ∈ (insL mk ins l).map (·.1), x ∈ q.order := by
    intro mk ins
    induction ins with
    | nil => intro l _ h; exact h
    | cons a r ih =>
      intro l h1 h2
      refine ih _ (fun x hx => h1 x (by simp [hx])) ?_
      rw [keys_insertList]
      split
      · exact h2
      · intro x hx
        rcases List.mem_append.1 hx with hx | hx
        · exact h2 x hx
        · simp at hx; subst hx; exact h1 a (by simp)
  have hstep : ∀ (fl : FixList) (w : Val), (∀ x ∈ fl.list.map (·.1), x ∈ q.order) →
      ∀ x ∈ (q.step w fl).list.map (·.1), x ∈ q.order := by
    intro fl w h
    rw [(step_ran q w fl).list]
    refine insl _ _ _ ?_ h
    intro x hx
    obtain ⟨n, hn, rfl⟩ := List.mem_map.1 hx
    cases hq : quadNames q.order (cnt q fl) with
    | none => rw [hq] at hn; simp at hn
    | some ns => rw [hq] at hn; exact names _ ns hq n (by simpa using hn)
  have hall : ∀ (fl : FixList) (w : Val), (∀ x ∈ fl.list.map (·.1), x ∈ q.order) →
      ∀ x ∈ (q.stepAll w fl).list.map (·.1), x ∈ q.order := by
    intro fl w h
    unfold Quad.stepAll
    split
    · generalize q.alts = alts
      induction alts generalizing fl with
      | nil => exact h
      | cons a r ih =>
        rw [List.foldl_cons]
        split
        · exact ih _ (hstep _ _ h)
        · exact ih _ h
    · exact h
  have hloop : ∀ (r : List Val) (k : Nat) (fl : FixList), (∀ x ∈ fl.list.map (·.1), x ∈ q.order) →
      ∀ x ∈ (q.loop k r fl).2.list.map (·.1), x ∈ q.order := by
    intro r
    induction r with
    | nil => intro k fl h; exact h
    | cons w r ih =>
      intro k fl h
      simp only [Quad.loop]
      split
      · exact h
      · split
        · exact hall _ _ h
        · split
          · exact hall _ _ h
          · exact ih _ _ (hall _ _ h)
  intro n w h
  unfold Definition.sets at h
  obtain ⟨⟨a, d⟩, hx, e⟩ := List.mem_map.1 h
  simp at e
  obtain ⟨rfl, rfl⟩ := e
  have : ∀ x ∈ ((Definition.quad q).run v.slice .new).2.list.map (·.1), x ∈ q.order := by
    simp only [Definition.run]
    split
    · simp [FixList.new]
    · exact hloop _ _ _ (by simp [FixList.new])
  exact this a (List.mem_map.2 ⟨_, hx, rfl⟩)

theorem sets_plain (valid : List Val → Bool) (v : Val) : (Definition.plain valid).sets v = [] := by
  simp only [Definition.sets, Definition.run]
  split <;> simp [FixList.new]

theorem marginDefs_flat : FlatDefs marginDefs where
  named := by
    intro p q h
    simp only [marginDefs] at h
    split at h
    · rename_i hp; simp at h; subst h; exact hp.symm
    · split at h <;> simp at h
  flat := by
    intro p df v n w h hm dn hn
    simp only [marginDefs] at h
    split at h
    · simp only [Option.some.injEq] at h
      subst h
      have := sets_quad_names _ _ _ _ hm
      simp only [marginDefs] at hn
      have hne : n ≠ "margin".toList := by
        intro hx
        subst hx
        revert this
        decide
      rw [if_neg hne] at hn
      split at hn
      · simp at hn; subst hn; rfl
      · simp at hn
    · split at h
      · simp at h; subst h; rw [sets_plain] at hm; simp at hm
      · simp at h

/-- the hypotheses of `C44_partial` are met by `margin-top: 3px` followed by `margin: 0 auto`; the winner is the
value from the shorthand -/
example : FlatDefs marginEnv.defs ∧
    RejectsClean marginEnv [author ⟨0, 1, 0⟩ "margin-top" (.unit 3 "px".toList), author ⟨0, 1, 0⟩ "margin" (.list [.zero, .str "auto".toList])] ∧
    NoLateTie (assignments marginEnv "margin-top".toList
      [author ⟨0, 1, 0⟩ "margin-top" (.unit 3 "px".toList), author ⟨0, 1, 0⟩ "margin" (.list [.zero, .str "auto".toList])]) ∧
    cascaded (compute marginEnv 5
      [author ⟨0, 1, 0⟩ "margin-top" (.unit 3 "px".toList), author ⟨0, 1, 0⟩ "margin" (.list [.zero, .str "auto".toList])])
      "margin-top".toList = some ⟨.zero, .author, false, ⟨0, 1, 0⟩⟩ := by
  refine ⟨marginDefs_flat, ?_, ?_, rfl⟩
  · intro a ha df hdf hv
    simp at ha
    rcases ha with rfl | rfl
    · exact absurd (show df.valid _ from by cases hdf; rfl) hv
    · exact absurd (show df.valid _ from by cases hdf; rfl) hv
  · intro a d m e b h
    exfalso
    have hA : assignments marginEnv "margin-top".toList
      [author ⟨0, 1, 0⟩ "margin-top" (.unit 3 "px".toList), author ⟨0, 1, 0⟩ "margin" (.list [.zero, .str "auto".toList])] =
      [(false, ⟨.unit 3 "px".toList, .author, false, ⟨0, 1, 0⟩⟩), (true, ⟨.zero, .author, false, ⟨0, 1, 0⟩⟩)] := by
      have v1 : (Definition.plain fun v => v.length == 1 && v.all isLen).valid (.unit 3 "px".toList) := rfl
      have v2 : (Definition.quad marginQuad).valid (.list [.zero, .str "auto".toList]) := rfl
      have a1 : assigned marginEnv "margin-top".toList (author ⟨0, 1, 0⟩ "margin-top" (.unit 3 "px".toList)) =
          [(false, ⟨.unit 3 "px".toList, .author, false, ⟨0, 1, 0⟩⟩)] := by
        have e : assigned marginEnv "margin-top".toList (author ⟨0, 1, 0⟩ "margin-top" (.unit 3 "px".toList)) =
            open Classical in if (Definition.plain fun v => v.length == 1 && v.all isLen).valid (.unit 3 "px".toList) then
              [(false, ⟨.unit 3 "px".toList, .author, false, ⟨0, 1, 0⟩⟩)] else [] := rfl
        rw [e, if_pos v1]
      have a2 : assigned marginEnv "margin-top".toList (author ⟨0, 1, 0⟩ "margin" (.list [.zero, .str "auto".toList])) =
          [(true, ⟨.zero, .author, false, ⟨0, 1, 0⟩⟩)] := by
        have e : assigned marginEnv "margin-top".toList (author ⟨0, 1, 0⟩ "margin" (.list [.zero, .str "auto".toList])) =
            open Classical in if (Definition.quad marginQuad).valid (.list [.zero, .str "auto".toList]) then
              [(true, ⟨.zero, .author, false, ⟨0, 1, 0⟩⟩)] else [] := rfl
        rw [e, if_pos v2]
      simp only [assignments, List.flatMap_cons, List.flatMap_nil, a1, a2]
      rfl
    rw [hA] at h
    rcases a with _ | ⟨x, _ | ⟨y, a⟩⟩
    · simp at h
    · rcases m with _ | ⟨z, m⟩ <;> simp at h
    · simp at h

/-- C44 fails for a longhand after the shorthand: with `margin: 0; margin-top: 5px` in one rule the top margin is
0. -/
theorem C44_order_violated :
    let l := [author ⟨0, 1, 0⟩ "margin" .zero, author ⟨0, 1, 0⟩ "margin-top" (.unit 5 "px".toList)]
    FlatDefs marginEnv.defs ∧ RejectsClean marginEnv l ∧
    (∀ n, cascaded (compute marginEnv n l) "margin-top".toList = some ⟨.zero, .author, false, ⟨0, 1, 0⟩⟩) ∧
    Wins ((assignments marginEnv "margin-top".toList l).map (·.2)) ⟨.unit 5 "px".toList, .author, false, ⟨0, 1, 0⟩⟩ := by
  have v1 : (Definition.plain fun v => v.length == 1 && v.all isLen).valid (.unit 5 "px".toList) := rfl
  have v2 : (Definition.quad marginQuad).valid .zero := rfl
  refine ⟨marginDefs_flat, ?_, ?_, ?_⟩
  · intro a ha df hdf hv
    simp at ha
    rcases ha with rfl | rfl
    · exact absurd (show df.valid _ from by cases hdf; rfl) hv
    · exact absurd (show df.valid _ from by cases hdf; rfl) hv
  · intro n
    cases n <;> rfl
  · have a1 : assigned marginEnv "margin-top".toList (author ⟨0, 1, 0⟩ "margin-top" (.unit 5 "px".toList)) =
        [(false, ⟨.unit 5 "px".toList, .author, false, ⟨0, 1, 0⟩⟩)] := by
      have e : assigned marginEnv "margin-top".toList (author ⟨0, 1, 0⟩ "margin-top" (.unit 5 "px".toList)) =
          open Classical in if (Definition.plain fun v => v.length == 1 && v.all isLen).valid (.unit 5 "px".toList) then
            [(false, ⟨.unit 5 "px".toList, .author, false, ⟨0, 1, 0⟩⟩)] else [] := rfl
      rw [e, if_pos v1]
    have a2 : assigned marginEnv "margin-top".toList (author ⟨0, 1, 0⟩ "margin" .zero) =
        [(true, ⟨.zero, .author, false, ⟨0, 1, 0⟩⟩)] := by
      have e : assigned marginEnv "margin-top".toList (author ⟨0, 1, 0⟩ "margin" .zero) =
          open Classical in if (Definition.quad marginQuad).valid .zero then
            [(true, ⟨.zero, .author, false, ⟨0, 1, 0⟩⟩)] else [] := rfl
      rw [e, if_pos v2]
    simp only [assignments, List.flatMap_cons, List.flatMap_nil, a1, a2]
    exact ⟨[_], [], rfl, by simp [Weaker, Decl.level, Spec3.Less], by simp⟩

/-- `border` and `border-width`, in the same way -/
def borderDefs : Defs := fun p =>
  if p = "border".toList then some (.other fun v => (v.length == 1 && v.all isLen, v.map fun x => ("border-width".toList, x)))
  else if p = "border-width".toList then
    some (.quad ⟨"border-width".toList, ["border-top-width".toList, "border-right-width".toList,
      "border-bottom-width".toList, "border-left-width".toList], [isLen], true⟩)
  else Option.none

/-- C44 fails for shorthands that set shorthands: what they set in the end has neither the importance nor the
specificity of the declaration.  `border: 1px !important` loses to `border-top-width: 5px`. -/
theorem C44_nested_violated :
    let e : Env := ⟨borderDefs, id, fun _ => []⟩
    let l := [author ⟨0, 1, 0⟩ "border" (.unit 1 "px".toList) true, author ⟨0, 1, 0⟩ "border-top-width" (.unit 5 "px".toList)]
    cascaded (compute e 5 l) "border-top-width".toList = some ⟨.unit 5 "px".toList, .author, false, ⟨0, 1, 0⟩⟩ ∧
    (∃ d, look (compute e 5 l) "border-top-width".toList = some [⟨.unit 5 "px".toList, .author, false, ⟨0, 1, 0⟩⟩, d] ∧
      d = ⟨.unit 1 "px".toList, .author, false, ⟨0, 0, 0⟩⟩) ∧
    Wins [⟨.unit 1 "px".toList, .author, true, ⟨0, 1, 0⟩⟩, ⟨.unit 5 "px".toList, .author, false, ⟨0, 1, 0⟩⟩]
      ⟨.unit 1 "px".toList, .author, true, ⟨0, 1, 0⟩⟩ :=
  ⟨rfl, ⟨_, rfl, rfl⟩, (C44_choice _ _).1 rfl⟩

end Verif.Cascade
