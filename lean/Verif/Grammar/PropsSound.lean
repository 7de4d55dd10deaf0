import Verif.Grammar.Groups
import Verif.Grammar.PropsEnds
import Mathlib.Tactic.Tauto

/-!
# C99: what the engine accepts is in the grammar; C100: what is in the grammar is accepted
-/

namespace Verif.Grammar
open Verif

theorem kw_takes (env : Env) (s : String) (v : Value) : (Leaf.keyword s.toList).takes env v = some true ↔
    (∃ t, v = .string t ∧ lower t = lower s.toList) ∨ (v = .none ∧ lower s.toList = "none".toList) := by
  cases v <;> simp [Leaf.takes, eqIgnoreCase]
  exact Iff.rfl

theorem stands_iff (env : Env) (l : Leaf) (v : Value) : Stands env l v ↔ l.takes env v = some true :=
  ⟨stands_takes, takes_stands⟩

/-- the words of a keyword -/
theorem kw_lang {env : Env} {s : String} {w : List Value} (h : (kw s).lang (Stands env) w) : ∃ v, w = [v] := by
  rw [kw, Component.lang] at h
  obtain ⟨v, rfl, _⟩ := h
  exact ⟨v, rfl⟩

theorem kw_in (env : Env) (s : String) : (kw s).lang (Stands env) [word s] := by
  rw [kw, Component.lang]
  exact ⟨_, rfl, (stands_iff _ _ _).2 ((kw_takes _ _ _).2 (.inl ⟨_, rfl, rfl⟩))⟩

theorem kwOpt_lang {env : Env} {s : String} {w : List Value} (h : (kwOpt s).lang (Stands env) w) : w = [] ∨ ∃ v, w = [v] := by
  rw [kwOpt, Component.lang] at h
  rcases h with h | ⟨v, rfl, _⟩
  · exact .inl h
  · exact .inr ⟨v, rfl⟩

/-- the comma of a grammar -/
def comma : Component := .leaf (.literal [',']) [.once]

theorem substs_mem : ∀ vs : List Value, hasSubsts vs = true ↔ ∃ v ∈ vs, hasSubst v = true
  | [] => by simp [hasSubsts]
  | v :: vs => by simp [hasSubsts, substs_mem vs]

theorem subst_of {v : Value} (h : Substitutes v) : hasSubst v = true := by
  induction h with
  | here name args h =>
    rw [hasSubst]
    simp only [List.map_cons, List.map_nil, List.mem_cons, List.not_mem_nil, or_false] at h
    rcases h with h | h
    · simp only [eqIgnoreCase, h, Bool.or_eq_true, decide_eq_true_eq]
      exact .inl (.inl rfl)
    · simp only [eqIgnoreCase, h, Bool.or_eq_true, decide_eq_true_eq]
      exact .inl (.inr rfl)
  | argument name args v hv _ ih =>
    rw [hasSubst, (substs_mem _).2 ⟨v, hv, ih⟩, Bool.or_true]
  | item items v hv _ ih =>
    rw [hasSubst, (substs_mem _).2 ⟨v, hv, ih⟩]

mutual
theorem of_subst : ∀ v : Value, hasSubst v = true → Substitutes v
  | .function name args, h => by
    have hrec := of_substs args
    rw [hasSubst] at h
    simp only [Bool.or_eq_true, eqIgnoreCase, decide_eq_true_eq] at h
    rcases h with (h | h) | h
    · exact .here _ _ (by rw [h]; decide +kernel)
    · exact .here _ _ (by rw [h]; decide +kernel)
    · obtain ⟨v, hv, hs⟩ := hrec h
      exact .argument _ _ v hv hs
  | .list items, h => by
    have hrec := of_substs items
    rw [hasSubst] at h
    obtain ⟨v, hv, hs⟩ := hrec h
    exact .item _ v hv hs
  | .none, h => by simp [hasSubst] at h
  | .color .., h => by simp [hasSubst] at h
  | .zero, h => by simp [hasSubst] at h
  | .number _, h => by simp [hasSubst] at h
  | .percentage _, h => by simp [hasSubst] at h
  | .string _, h => by simp [hasSubst] at h
  | .unit .., h => by simp [hasSubst] at h
  | .initial, h => by simp [hasSubst] at h
  | .inherit, h => by simp [hasSubst] at h
  | .comma, h => by simp [hasSubst] at h

theorem of_substs : ∀ vs : List Value, hasSubsts vs = true → ∃ v ∈ vs, Substitutes v
  | [], h => by simp [hasSubsts] at h
  | v :: vs, h => by
    have h1 := of_subst v
    have h2 := of_substs vs
    rw [hasSubsts, Bool.or_eq_true] at h
    rcases h with h | h
    · exact ⟨v, by simp, h1 h⟩
    · obtain ⟨u, hu, hs⟩ := h2 h
      exact ⟨u, List.mem_cons_of_mem _ hu, hs⟩
end

theorem wide_iff (input : List Value) : isWide input = true ↔ ∃ v, input = [v] ∧ WideKeyword v := by
  constructor
  · intro h
    unfold isWide at h
    split at h
    · exact ⟨_, rfl, .inl rfl⟩
    · exact ⟨_, rfl, .inr (.inl rfl)⟩
    · rename_i s
      refine ⟨_, rfl, .inr (.inr ⟨s, rfl, ?_⟩)⟩
      rw [List.any_eq_true] at h
      obtain ⟨k, hk, e⟩ := h
      simp only [eqIgnoreCase, decide_eq_true_eq] at e
      rw [e]
      simp only [List.mem_cons, List.not_mem_nil, or_false] at hk
      rcases hk with rfl | rfl | rfl | rfl | rfl <;> decide +kernel
    · cases h
  · rintro ⟨v, rfl, rfl | rfl | ⟨s, rfl, hs⟩⟩
    · rfl
    · rfl
    · simp only [isWide, List.any_eq_true, eqIgnoreCase, decide_eq_true_eq]
      simp only [List.mem_map] at hs
      obtain ⟨k, hk, e⟩ := hs
      refine ⟨k, ?_, ?_⟩
      · revert hk
        simp only [List.mem_cons, List.not_mem_nil, or_false]
        tauto
      · rw [← e]
        simp only [List.mem_cons, List.not_mem_nil, or_false] at hk
        rcases hk with rfl | rfl | rfl | rfl | rfl <;> rfl

theorem lower_append (a b : Str) : lower (a ++ b) = lower a ++ lower b := by simp [lower]
theorem lower_length (a : Str) : (lower a).length = a.length := by simp [lower]

theorem strip_some (s : Str) : (stripVendor s).isSome = true ↔
    ∃ p ∈ vendorPrefixes, s.length > p.length ∧ lower (s.take p.length) = lower p := by
  simp only [stripVendor, List.findSome?_isSome_iff]
  constructor
  · rintro ⟨p, hp, h⟩
    split at h
    · rename_i h'
      exact ⟨p, hp, h'.1, by simpa [eqIgnoreCase] using h'.2⟩
    · cases h
  · rintro ⟨p, hp, h1, h2⟩
    exact ⟨p, hp, by rw [if_pos ⟨h1, by simpa [eqIgnoreCase] using h2⟩]; rfl⟩

theorem vendor_iff (input : List Value) : isVendor input = true ↔ ∃ v, input = [v] ∧ Prefixed v := by
  constructor
  · intro h
    unfold isVendor at h
    split at h
    · rename_i s
      obtain ⟨p, hp, hl, e⟩ := (strip_some s).1 h
      have hs : lower s = lower p ++ lower (s.drop p.length) := by
        rw [← e, ← lower_append, List.take_append_drop]
      have hr : lower (s.drop p.length) ≠ [] := by
        intro h0
        have := congrArg List.length h0
        rw [lower_length, List.length_drop] at this
        simp only [List.length_nil] at this
        omega
      refine ⟨_, rfl, s, ?_⟩
      simp only [vendorPrefixes, List.map_cons, List.map_nil, List.mem_cons, List.not_mem_nil, or_false] at hp
      rcases hp with rfl | rfl | rfl | rfl | rfl | rfl
      · exact ⟨"-webkit-", _, rfl, by simp, hr, hs⟩
      · exact ⟨"-moz-", _, rfl, by simp, hr, hs⟩
      · exact ⟨"-ms-", _, rfl, by simp, hr, hs⟩
      · exact ⟨"-o-", _, rfl, by simp, hr, hs⟩
      · exact ⟨"-khtml-", _, rfl, by simp, hr, hs⟩
      · exact ⟨"-apple-", _, rfl, by simp, hr, hs⟩
    · cases h
  · rintro ⟨v, rfl, s, p, rest, rfl, hp, hr, e⟩
    refine (strip_some s).2 ⟨p.toList, ?_, ?_, ?_⟩
    · simp only [List.mem_cons, List.not_mem_nil, or_false] at hp
      rcases hp with rfl | rfl | rfl | rfl | rfl | rfl <;> decide +kernel
    · have := congrArg List.length e
      rw [lower_length, List.length_append] at this
      have := List.length_pos_iff.2 hr
      omega
    · have hl : lower p.toList = p.toList := by
        simp only [List.mem_cons, List.not_mem_nil, or_false] at hp
        rcases hp with rfl | rfl | rfl | rfl | rfl | rfl <;> decide +kernel
      have : lower (s.take p.toList.length) = (lower s).take p.toList.length := by simp [lower, List.map_take]
      rw [this, e, hl, List.take_left]

theorem always_iff (input : List Value) :
    (isWide input || hasSubsts input || isVendor input) = true ↔ AlwaysValid input := by
  simp only [Bool.or_eq_true, AlwaysValid, wide_iff, vendor_iff]
  have : hasSubsts input = true ↔ ∃ v ∈ input, Substitutes v :=
    ⟨of_substs input, fun ⟨v, hv, h⟩ => (substs_mem _).2 ⟨v, hv, subst_of h⟩⟩
  rw [this, or_assoc]

theorem not_always {input : List Value} (h : (isWide input || hasSubsts input || isVendor input) = false) : ¬ AlwaysValid input := by
  rw [← always_iff, h]
  simp

/-! ## C99 -/

/-- C99, for grammars where `#` and `!` are only used at the end, multipliers are not stacked and nothing beside a comma can be left
out: a value that is accepted is one that the grammar allows, or one that is allowed for every property. -/
theorem C99_accepted_valid_partial (env : Env) (g : Component) (hg : Closed (Stands env) g) (input : List Value)
    (h : Accepts env g input) : AlwaysValid input ∨ g.lang (Stands env) input := by
  obtain ⟨n, h⟩ := h
  rw [verdict_eq] at h
  split at h
  · rename_i hw
    exact .inl ((always_iff _).1 hw)
  · right
    split at h
    · rename_i hr
      exact run_end env n g hg input hr
    all_goals cases h

/-- `none | [ thin || dotted ] && [ x , y ]` and a list at the end: `steps( a? b+ ) c#` -/
example (env : Env) : Closed (Stands env) (.group .exactlyOne [kw "none",
    .group .juxtaposition [kw "auto", .group .allAnyOrder [.group .atLeastOneAnyOrder [kw "thin", kw "dotted"] [.once],
      .group .juxtaposition [kw "x", comma, kw "y"] [.opt]] [.once],
      .leaf (.keyword "c".toList) [.csv 1 5]] [.once]] [.once]) := by
  have hx : ¬ (kw "x").lang (Stands env) [] := by
    intro h
    obtain ⟨v, h⟩ := kw_lang h
    simp at h
  have hy : ¬ (kw "y").lang (Stands env) [] := by
    intro h
    obtain ⟨v, h⟩ := kw_lang h
    simp at h
  simp [Closed, ClosedAll, ClosedSeq, Firm, FirmAll, Plain, Ends, Commas, Beside, kw, comma, Component.isComma, Component.ms] at hx hy ⊢
  simp [hx, hy]

theorem joined_odd {sep : Lang} (hs : ∀ w, sep w → w.length = 1) {ps : List (List Value)} {w : List Value} (hj : Joined sep ps w)
    (h : ∀ p ∈ ps, p.length = 1) : ps ≠ [] → w.length + 1 = 2 * ps.length := by
  induction hj with
  | none => intro h; exact absurd rfl h
  | one t => intro _; simp [h t (by simp)]
  | more t s t' ts w hsep _ ih =>
    intro _
    have h1 := ih (fun p hp => h p (List.mem_cons_of_mem _ hp)) (by simp)
    have h2 := h t (by simp)
    have h3 := hs s hsep
    simp only [List.length_cons, List.length_append] at h1 ⊢
    omega

/-- the words of `a#` have an odd number of values -/
theorem csv_odd {env : Env} {s : String} {b : Nat} {w : List Value}
    (h : (Component.leaf (.keyword s.toList) [.csv 1 b]).lang (Stands env) w) : w.length % 2 = 1 := by
  rw [Component.lang] at h
  obtain ⟨ps, h1, _, h3, h4⟩ := h
  have := joined_odd (by rintro w rfl; rfl) h4 (by
    intro p hp
    obtain ⟨v, rfl, _⟩ := h3 p hp
    rfl) (by rintro rfl; simp at h1)
  omega

theorem commas_none {leaf : Leaf → Value → Prop} : ∀ cs : List Component, (∀ c ∈ cs, c.isComma = false) → Commas leaf cs := by
  intro cs h
  refine ⟨fun c hc h' => absurd h' (by simp [h c hc]), ?_⟩
  induction cs with
  | nil => trivial
  | cons c cs ih =>
    cases cs with
    | nil => trivial
    | cons d r =>
      refine ⟨fun h' => ?_, fun h' => ?_, ih fun c hc => h c (List.mem_cons_of_mem _ hc)⟩
      · rw [h d (by simp)] at h'; cases h'
      · rw [h c (by simp)] at h'; cases h'

/-- C99 fails: `a# b` takes the comma that is not followed by another `a`. -/
theorem C99_accepted_valid_violated_list (env : Env) :
    let g : Component := .group .juxtaposition [.leaf (.keyword "a".toList) [.csv 1 4294967295], kw "b"] [.once]
    Accepts env g [word "a", .comma, word "b"] ∧ ¬ AlwaysValid [word "a", .comma, word "b"] ∧
    ¬ g.lang (Stands env) [word "a", .comma, word "b"] := by
  refine ⟨⟨4, rfl⟩, not_always rfl, ?_⟩
  intro h
  rw [Component.lang] at h
  have h' := (group_concat (commas_none _ (by simp [kw, Component.isComma])) _).1 h
  obtain ⟨x, y, hx, ⟨z, e, hz, he, rfl⟩, e2⟩ := h'
  have h1 := csv_odd hx
  obtain ⟨v, rfl⟩ := kw_lang hz
  have he' : e = [] := he
  subst he'
  have := congrArg List.length e2
  simp at this
  omega

/-- the texts of two segments, `[xs] , [ys]` -/
theorem two_segments {Ls Ms : List Lang} {c : Lang} {w : List Value} (hc : ∀ s, c s → s.length = 1)
    (hM : Ms ≠ []) (hL : Ls ≠ []) (h : ∃ ts : List (List Value), List.Forall₂ Concat [Ls, Ms] ts ∧ Joined c (kept [Ls, Ms] ts) w) :
    ∃ s t, Concat Ls s ∧ Concat Ms t ∧
      ((s = [] ∧ w = t) ∨ (t = [] ∧ w = s) ∨ (s ≠ [] ∧ t ≠ [] ∧ w.length = s.length + 1 + t.length)) := by
  obtain ⟨ts, hf, hj⟩ := h
  cases hf with
  | @cons _ s _ _ h1 h2 =>
    cases h2 with
    | @cons _ t _ _ h3 h4 =>
      cases h4
      refine ⟨s, t, h1, h3, ?_⟩
      have e1 : Ls.isEmpty = false := by simpa using hL
      have e2 : Ms.isEmpty = false := by simpa using hM
      cases s with
      | nil =>
        cases t with
        | nil =>
          simp only [kept, List.zip_cons_cons, List.zip_nil_left, List.filter_cons, e1, e2, List.isEmpty_nil, Bool.not_true, Bool.or_self,
            Bool.false_eq_true, if_false, List.filter_nil, List.map_nil] at hj
          cases hj
          exact .inl ⟨rfl, rfl⟩
        | cons v t =>
          simp only [kept, List.zip_cons_cons, List.zip_nil_left, List.filter_cons, e1, e2, List.isEmpty_nil, List.isEmpty_cons, Bool.not_true,
            Bool.not_false, Bool.or_self, Bool.or_true, Bool.false_eq_true, if_false, if_true, List.filter_nil, List.map_nil,
            List.map_cons] at hj
          cases hj
          exact .inl ⟨rfl, rfl⟩
      | cons u s =>
        cases t with
        | nil =>
          simp only [kept, List.zip_cons_cons, List.zip_nil_left, List.filter_cons, e1, e2, List.isEmpty_nil, List.isEmpty_cons, Bool.not_true,
            Bool.not_false, Bool.or_self, Bool.or_true, Bool.false_eq_true, if_false, if_true, List.filter_nil, List.map_nil,
            List.map_cons] at hj
          cases hj
          exact .inr (.inl ⟨rfl, rfl⟩)
        | cons v t =>
          simp only [kept, List.zip_cons_cons, List.zip_nil_left, List.filter_cons, e1, e2, List.isEmpty_cons,
            Bool.not_false, Bool.or_true, if_true, List.filter_nil, List.map_nil, List.map_cons] at hj
          refine .inr (.inr ⟨by simp, by simp, ?_⟩)
          cases hj with
          | more _ s' _ _ _ hs' hw =>
            cases hw
            simp only [List.length_append, hc s' hs']

theorem comma_one {env : Env} : ∀ s, leafLang (Stands env) (.literal [',']) s → s.length = 1 := by
  rintro s ⟨v, rfl, _⟩
  rfl

theorem concat_one {L : Lang} {w : List Value} (h : Concat [L] w) : L w := by
  obtain ⟨a, b, ha, hb, e⟩ := h
  have hb' : b = [] := hb
  subst hb'
  rw [e, List.append_nil]
  exact ha

/-- C99 fails: `a? , b` takes a comma with nothing before it. -/
theorem C99_accepted_valid_violated_leading (env : Env) :
    let g : Component := .group .juxtaposition [kwOpt "a", comma, kw "b"] [.once]
    Accepts env g [.comma, word "b"] ∧ ¬ AlwaysValid [.comma, word "b"] ∧ ¬ g.lang (Stands env) [.comma, word "b"] := by
  refine ⟨⟨4, rfl⟩, not_always rfl, ?_⟩
  intro h
  rw [Component.lang] at h
  obtain ⟨s, t, h1, h2, h3⟩ := two_segments (Ls := [(kwOpt "a").lang (Stands env)]) (Ms := [(kw "b").lang (Stands env)])
    comma_one (by simp) (by simp) h
  obtain ⟨v, rfl⟩ := kw_lang (concat_one h2)
  rcases kwOpt_lang (concat_one h1) with rfl | ⟨u, rfl⟩
  · simp at h3
  · simp at h3

/-- C99 fails: `a , b?` takes a comma with nothing after it. -/
theorem C99_accepted_valid_violated_trailing (env : Env) :
    let g : Component := .group .juxtaposition [kw "a", comma, kwOpt "b"] [.once]
    Accepts env g [word "a", .comma] ∧ ¬ AlwaysValid [word "a", .comma] ∧ ¬ g.lang (Stands env) [word "a", .comma] := by
  refine ⟨⟨4, rfl⟩, not_always rfl, ?_⟩
  intro h
  rw [Component.lang] at h
  obtain ⟨s, t, h1, h2, h3⟩ := two_segments (Ls := [(kw "a").lang (Stands env)]) (Ms := [(kwOpt "b").lang (Stands env)])
    comma_one (by simp) (by simp) h
  obtain ⟨v, rfl⟩ := kw_lang (concat_one h1)
  rcases kwOpt_lang (concat_one h2) with rfl | ⟨u, rfl⟩
  · simp at h3
  · simp at h3

/-- C99 fails: `a b? , c` does without the comma where `b` is left out. -/
theorem C99_accepted_valid_violated_missing (env : Env) :
    let g : Component := .group .juxtaposition [kw "a", kwOpt "b", comma, kw "c"] [.once]
    Accepts env g [word "a", word "c"] ∧ ¬ AlwaysValid [word "a", word "c"] ∧ ¬ g.lang (Stands env) [word "a", word "c"] := by
  refine ⟨⟨4, rfl⟩, not_always rfl, ?_⟩
  intro h
  rw [Component.lang] at h
  obtain ⟨s, t, h1, h2, h3⟩ := two_segments (Ls := [(kw "a").lang (Stands env), (kwOpt "b").lang (Stands env)])
    (Ms := [(kw "c").lang (Stands env)]) comma_one (by simp) (by simp) h
  obtain ⟨v, rfl⟩ := kw_lang (concat_one h2)
  obtain ⟨x, y, hx, hy, rfl⟩ := h1
  obtain ⟨u, rfl⟩ := kw_lang hx
  have hy := concat_one hy
  rcases kwOpt_lang hy with rfl | ⟨u', rfl⟩
  · simp at h3
  · simp at h3

/-- C99 fails: in `a#?` the `?` is taken for the items, not for the list. -/
theorem C99_accepted_valid_violated_stacked (env : Env) :
    let g : Component := .leaf (.keyword "a".toList) [.csv 1 4294967295, .opt]
    Accepts env g [word "a", .comma, .comma, word "a"] ∧ ¬ AlwaysValid [word "a", .comma, .comma, word "a"] ∧
    ¬ g.lang (Stands env) [word "a", .comma, .comma, word "a"] := by
  refine ⟨⟨5, rfl⟩, not_always rfl, ?_⟩
  intro h
  rw [Component.lang] at h
  rcases h with h | h
  · simp at h
  · have := csv_odd (env := env) (s := "a") (b := 4294967295) (w := [word "a", .comma, .comma, word "a"]) (by
      rw [Component.lang]
      exact h)
    simp at this

/-- C99 fails: `[ a? b? ]!` is satisfied by nothing, if something follows. -/
theorem C99_accepted_valid_violated_bang (env : Env) :
    let g : Component := .group .juxtaposition [.group .juxtaposition [kwOpt "a", kwOpt "b"] [.bang], kw "c"] [.once]
    Accepts env g [word "c"] ∧ ¬ AlwaysValid [word "c"] ∧ ¬ g.lang (Stands env) [word "c"] := by
  refine ⟨⟨4, rfl⟩, not_always rfl, ?_⟩
  intro h
  rw [Component.lang] at h
  have h' := (group_concat (commas_none _ (by simp [kw, Component.isComma])) _).1 h
  obtain ⟨x, y, hx, hy, e2⟩ := h'
  obtain ⟨v, rfl⟩ := kw_lang (concat_one hy)
  rw [Component.lang] at hx
  have hne : x ≠ [] := hx.2
  have := congrArg List.length e2
  have h2 := List.length_pos_iff.2 hne
  simp at this
  exact hne this

/-! ## C100 -/

/-- Whatever is always valid is accepted for every grammar. -/
theorem C100_always_accepted (env : Env) (g : Component) (input : List Value) (h : AlwaysValid input) : Answers env g input .yes := by
  refine answers_of (n := 0) ?_ (by simp)
  rw [verdict_eq, if_pos ((always_iff _).2 h)]

/-- `margin: var(--x) 1px` and `display: -WEBKIT-box` -/
example : AlwaysValid [.function "var".toList [word "--x"], .unit 1 "px".toList] ∧ AlwaysValid [word "-WEBKIT-box"] :=
  ⟨(always_iff _).1 rfl, (always_iff _).1 rfl⟩

/-- C100, for grammars in which the next value decides every choice: every value that the grammar allows is accepted. -/
theorem C100_valid_accepted_partial (env : Env) (g : Component) (hg : Clear (Stands env) g fun _ => False) (input : List Value)
    (h : g.lang (Stands env) input) : Answers env g input .yes := by
  have hr := (run_exact env g _ hg (K := deeps input) (Nat.le_refl _)).pos input [] h trivial (by simp)
  rw [List.append_nil] at hr
  refine answers_of (n := deeps input + g.rounds + 1) ?_ (by simp)
  rw [verdict_eq]
  split
  · rfl
  · rw [hr]

/-- Both together: for such grammars the engine decides the language. -/
theorem C100_decides_partial (env : Env) (g : Component) (hc : Closed (Stands env) g) (hg : Clear (Stands env) g fun _ => False)
    (hb : g.busy = true) (hr : g.resolved = true) (input : List Value) (hw : ¬ AlwaysValid input) :
    (g.lang (Stands env) input → Answers env g input .yes) ∧ (¬ g.lang (Stands env) input → Answers env g input .no) := by
  refine ⟨C100_valid_accepted_partial env g hg input, fun h => ?_⟩
  rcases C101_answers_partial env g hb hr input with hy | hn
  · obtain ⟨n, hy⟩ := hy
    rcases C99_accepted_valid_partial env g hc input ⟨n, hy n (Nat.le_refl _)⟩ with h' | h'
    · exact absurd h' hw
    · exact absurd h' h
  · exact hn

/-- what begins a keyword -/
theorem kw_begins {env : Env} {s : String} {v : Value} (h : Begins ((kw s).lang (Stands env)) v) :
    (∃ t, v = .string t ∧ lower t = lower s.toList) ∨ (v = .none ∧ lower s.toList = "none".toList) := by
  obtain ⟨w, h⟩ := h
  rw [kw, Component.lang] at h
  obtain ⟨u, e, hu⟩ := h
  simp only [List.cons.injEq] at e
  rw [e.1]
  exact (kw_takes env s u).1 ((stands_iff _ _ _).1 hu)

theorem kw_apart {env : Env} {s t : String} (h : lower s.toList ≠ lower t.toList) :
    Apart (Begins ((kw s).lang (Stands env))) (Begins ((kw t).lang (Stands env))) := by
  intro v hv hv'
  rcases kw_begins hv with ⟨a, rfl, ha⟩ | ⟨rfl, ha⟩
  · rcases kw_begins hv' with ⟨b, e, hb⟩ | ⟨e, _⟩
    · cases e
      exact h (ha.symm.trans hb)
    · cases e
  · rcases kw_begins hv' with ⟨b, e, hb⟩ | ⟨_, hb⟩
    · cases e
    · exact h (ha.trans hb.symm)

/-- `thin || dotted || red`, in any order: the grammar of a border, with one word for each of its types -/
example (env : Env) : Clear (Stands env) (.group .atLeastOneAnyOrder [kw "thin", kw "dotted", kw "red"] [.once]) fun _ => False := by
  have hn : ∀ s, ¬ (kw s).lang (Stands env) [] := by
    intro s h
    obtain ⟨v, h⟩ := kw_lang h
    simp at h
  have hc : ∀ (s : String) (F : Value → Prop), Clear (Stands env) (kw s) F := by
    intro s F
    rw [kw, Clear]
    exact ⟨rfl, trivial⟩
  rw [Clear]
  refine ⟨trivial, ?_, ?_, ?_, ?_⟩
  · rintro ⟨qs, os, hq, hp, hcat⟩
    cases qs with
    | nil => exact hq rfl
    | cons q qs =>
      have : q ∈ items (Stands env) [kw "thin", kw "dotted", kw "red"] := hp.mem_iff.1 (by simp)
      rw [List.map_cons, concat_nil_cons] at hcat
      simp only [items, List.mem_cons, List.not_mem_nil, or_false] at this
      rcases this with rfl | rfl | rfl
      · exact hn _ hcat.1
      · exact hn _ hcat.1
      · exact hn _ hcat.1
  · simp only [items, List.map_cons, List.map_nil, Distinct, List.mem_cons, List.not_mem_nil, or_false, forall_eq_or_imp, forall_eq,
      and_true]
    exact ⟨⟨kw_apart (by decide +kernel), kw_apart (by decide +kernel)⟩, kw_apart (by decide +kernel), fun _ h => h.elim⟩
  · intro i hi
    simp only [items, List.mem_cons, List.not_mem_nil, or_false] at hi
    rcases hi with rfl | rfl | rfl <;> exact ⟨hn _, fun v _ h => h⟩
  · simp only [ClearAny, hc, and_self]

/-- the words of `first? , second? , third?` -/
theorem first_in (env : Env) : (Component.group .juxtaposition [kwOpt "first", comma, kwOpt "second", comma, kwOpt "third"] [.once]).lang
    (Stands env) [word "first"] := by
  rw [Component.lang]
  have hf : (kwOpt "first").lang (Stands env) [word "first"] := by
    rw [kwOpt, Component.lang]
    have := kw_in env "first"
    rw [kw, Component.lang] at this
    exact .inr this
  have he : ∀ s, (kwOpt s).lang (Stands env) [] := by
    intro s
    rw [kwOpt, Component.lang]
    exact .inl rfl
  have one : ∀ (L : Lang) (w : List Value), L w → Concat [L] w := fun L w h => ⟨w, [], h, rfl, by simp⟩
  exact ⟨[[word "first"], [], []], .cons (one _ _ hf) (.cons (one _ _ (he _)) (.cons (one _ _ (he _)) .nil)), Joined.one _⟩

/-- C100 fails: where two things that can be left out follow, each after a comma, the first alone is not accepted. -/
theorem C100_valid_accepted_violated_commas (env : Env) :
    let g : Component := .group .juxtaposition [kwOpt "first", comma, kwOpt "second", comma, kwOpt "third"] [.once]
    g.lang (Stands env) [word "first"] ∧ Answers env g [word "first"] .no :=
  ⟨first_in env, answers_of (n := 3) rfl (by simp)⟩

/-- C100 fails: `a? a` does not accept one `a`. -/
theorem C100_valid_accepted_violated_greedy (env : Env) :
    let g : Component := .group .juxtaposition [kwOpt "a", kw "a"] [.once]
    g.lang (Stands env) [word "a"] ∧ Answers env g [word "a"] .no := by
  refine ⟨?_, answers_of (n := 3) rfl (by simp)⟩
  rw [Component.lang]
  refine (group_concat (commas_none _ (by simp [kw, kwOpt, Component.isComma])) _).2 ?_
  refine ⟨[], [word "a"], ?_, ⟨[word "a"], [], kw_in env "a", rfl, rfl⟩, rfl⟩
  rw [kwOpt, Component.lang]
  exact .inl rfl

/-- C100 fails: a group at the end, all of whose parts can be left out, must not be left out. -/
theorem C100_valid_accepted_violated_group (env : Env) :
    let g : Component := .group .juxtaposition [kw "c", .group .juxtaposition [kwOpt "a", kwOpt "b"] [.once]] [.once]
    g.lang (Stands env) [word "c"] ∧ Answers env g [word "c"] .no := by
  refine ⟨?_, answers_of (n := 3) rfl (by simp)⟩
  have he : ∀ s, (kwOpt s).lang (Stands env) [] := by
    intro s
    rw [kwOpt, Component.lang]
    exact .inl rfl
  rw [Component.lang]
  refine (group_concat (commas_none _ (by simp [kw, Component.isComma])) _).2 ?_
  refine ⟨[word "c"], [], kw_in env "c", ⟨[], [], ?_, rfl, rfl⟩, rfl⟩
  show (Component.group .juxtaposition [kwOpt "a", kwOpt "b"] [.once]).lang (Stands env) []
  rw [Component.lang]
  refine (group_concat (commas_none _ (by simp [kwOpt, Component.isComma])) _).2 ?_
  exact ⟨[], [], he _, ⟨[], [], he _, rfl, rfl⟩, rfl⟩

/-- C100 fails: in `a# , b` the list takes the comma that belongs to the `b`. -/
theorem C100_valid_accepted_violated_list (env : Env) :
    let g : Component := .group .juxtaposition [.leaf (.keyword "a".toList) [.csv 1 4294967295], comma, kw "b"] [.once]
    g.lang (Stands env) [word "a", .comma, word "b"] ∧ Answers env g [word "a", .comma, word "b"] .no := by
  refine ⟨?_, answers_of (n := 4) rfl (by simp)⟩
  have ha : (Component.leaf (.keyword "a".toList) [.csv 1 4294967295]).lang (Stands env) [word "a"] := by
    rw [Component.lang]
    have := kw_in env "a"
    rw [kw, Component.lang] at this
    exact ⟨[[word "a"]], by simp, by simp, fun p hp => List.mem_singleton.1 hp ▸ this, Joined.one _⟩
  have one : ∀ (L : Lang) (w : List Value), L w → Concat [L] w := fun L w h => ⟨w, [], h, rfl, by simp⟩
  rw [Component.lang]
  exact ⟨[[word "a"], [word "b"]], .cons (one _ _ ha) (.cons (one _ _ (kw_in env "b")) .nil),
    Joined.more _ [.comma] _ [] _ ⟨.comma, rfl, takes_stands rfl⟩ (Joined.one _)⟩

end Verif.Grammar
