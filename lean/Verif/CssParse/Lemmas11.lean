import Verif.CssParse.Lemmas10

/-! # C109: more stack changes nothing -/

namespace Verif.CssParse

open Verif.CssTok (Token)

/-- the second step does what the first does, unless that runs out of stack -/
def Le {α : Type} (f g : P α) : Prop := ∀ s, f s = .deep ∨ g s = f s

structure Rec.Le (k l : Rec) : Prop where
  block : ∀ m, CssParse.Le (k.block m) (l.block m)
  args : CssParse.Le k.args l.args
  expr : CssParse.Le k.expr l.expr
  pseudo : ∀ m, CssParse.Le (k.pseudo m) (l.pseudo m)
  cond : ∀ c, CssParse.Le (k.cond c) (l.cond c)

section rules
variable {α β : Type}

theorem le_refl (f : P α) : Le f f := fun _ => .inr rfl

theorem le_bind {m m' : P α} {f f' : α → P β} (hm : Le m m') (hf : ∀ a, Le (f a) (f' a)) : Le (m >>= f) (m' >>= f') := by
  intro s
  rw [bind_run, bind_run]
  rcases hm s with e | e
  · rw [e]; exact .inl rfl
  · rw [e]
    cases m s with
    | ok a s' => exact hf a s'
    | err s' => exact .inr rfl
    | deep => exact .inl rfl
    | hang => exact .inr rfl

theorem le_ite {c : Prop} [Decidable c] {a a' b b' : P α} (ha : Le a a') (hb : Le b b') :
    Le (if c then a else b) (if c then a' else b') := by
  split <;> assumption

theorem le_recurse {f f' : P α} (h : Le f f') : Le (recurse f) (recurse f') := by
  intro s
  unfold recurse
  split
  · exact .inr rfl
  · rcases h { s with depth := s.depth + 1 } with e | e
    · rw [e]; exact .inl rfl
    · rw [e]; exact .inr rfl

theorem le_attempt {f f' : P α} (h : Le f f') : Le (attempt f) (attempt f') := by
  intro s
  unfold attempt
  rcases h s with e | e
  · rw [e]; exact .inl rfl
  · rw [e]; exact .inr rfl

theorem le_thenPop {f f' : P α} (h : Le f f') : Le (thenPop f) (thenPop f') := by
  intro s
  unfold thenPop
  rcases h s with e | e
  · rw [e]; exact .inl rfl
  · rw [e]; exact .inr rfl

theorem le_forever {σ : Type} {body body' : σ → P (σ ⊕ β)} (h : ∀ x, Le (body x) (body' x)) (x : σ) :
    Le (forever body x) (forever body' x) := by
  have : ∀ m x, Le (rounds body m x) (rounds body' m x) := by
    intro m
    induction m with
    | zero => exact fun x => le_refl _
    | succ m ih =>
      intro x
      refine le_bind (h x) fun r => ?_
      cases r with
      | inl y => exact ih y
      | inr b => exact le_refl _
  exact fun s => this _ x s

end rules

/-- closes the goals that follow from the rules -/
syntax "le" ("[" term,* "]")? : tactic
macro_rules
  | `(tactic| le) => `(tactic| le [])
  | `(tactic| le [$ts,*]) => `(tactic| repeat' (first
      | with_reducible exact le_refl _
      | with_reducible exact Rec.Le.block ‹_› _
      | with_reducible exact Rec.Le.args ‹_›
      | with_reducible exact Rec.Le.expr ‹_›
      | with_reducible exact Rec.Le.pseudo ‹_› _
      | with_reducible exact Rec.Le.cond ‹_› _
      $[| with_reducible exact $ts]*
      | with_reducible refine le_recurse ?_
      | with_reducible refine le_attempt ?_
      | with_reducible refine le_thenPop ?_
      | with_reducible refine le_forever (fun _ => ?_) _
      | with_reducible refine le_bind ?_ (fun _ => ?_)
      | with_reducible refine le_ite ?_ ?_
      | split))

section values
variable {env : Env} {k l : Rec} (h : k.Le l)
include h

theorem le_calcExpr : Le (calcExpr env k) (calcExpr env l) := by unfold calcExpr; le
theorem le_calcValue : Le (calcValue env k) (calcValue env l) := by unfold calcValue; le [le_calcExpr h]
theorem le_function : Le (function k) (function l) := by unfold function; le
theorem le_identValue (v : Str) : Le (identValue env k v) (identValue env l v) := by unfold identValue; le [le_function h]
theorem le_value : Le (value env k) (value env l) := by unfold value; le [le_calcValue h, le_function h, le_identValue h _]
theorem le_values : Le (values env k) (values env l) := by unfold values; le [le_value h]
theorem le_pseudoElementSelector : Le (pseudoElementSelector env k) (pseudoElementSelector env l) := by
  unfold pseudoElementSelector; le
theorem le_pseudoSelector : Le (pseudoSelector env k) (pseudoSelector env l) := by unfold pseudoSelector; le
theorem le_selectorPart (t : Token) : Le (selectorPart env k t) (selectorPart env l t) := by
  unfold selectorPart; le [le_pseudoElementSelector h, le_pseudoSelector h]
theorem le_selectorRound (x : SelState) : Le (selectorRound env k x) (selectorRound env l x) := by
  unfold selectorRound; le [le_selectorPart h _]
theorem le_selector : Le (selector env k) (selector env l) := by unfold selector; le [le_selectorRound h _]
theorem le_selectorList : Le (selectorList env k) (selectorList env l) := by unfold selectorList; le [le_selector h]
theorem le_pseudoNth : Le (pseudoNth env k) (pseudoNth env l) := by unfold pseudoNth; le [le_selectorList h]
theorem le_pseudoInner (m : Str) : Le (pseudoInner env k m) (pseudoInner env l m) := by
  unfold pseudoInner; le [le_selectorList h, le_pseudoNth h, le_selector h]
theorem le_mediaTerm : Le (mediaTerm k) (mediaTerm l) := by unfold mediaTerm; le [le_function h]
theorem le_mediaFeatureValue : Le (mediaFeatureValue k) (mediaFeatureValue l) := by
  unfold mediaFeatureValue; le [le_function h, le_mediaTerm h]
theorem le_mediaFeature (c : Kind) : Le (mediaFeature k c) (mediaFeature l c) := by
  unfold mediaFeature; le [le_mediaFeatureValue h]
theorem le_mediaRange : Le (mediaRange k) (mediaRange l) := by unfold mediaRange; le [le_mediaTerm h]
theorem le_mediaFeatureOrRange (c : Kind) : Le (mediaFeatureOrRange k c) (mediaFeatureOrRange l c) := by
  unfold mediaFeatureOrRange; le [le_mediaFeature h _, le_mediaRange h]
theorem le_conditionRound (c : Kind) (x : List Node) : Le (conditionRound k c x) (conditionRound l c x) := by
  unfold conditionRound; le [le_mediaFeatureOrRange h _]
theorem le_condition (c : Kind) : Le (condition k c) (condition l c) := by unfold condition; le [le_conditionRound h _ _]
theorem le_mediaQuery : Le (mediaQuery env k) (mediaQuery env l) := by unfold mediaQuery; le [le_condition h _]
theorem le_mediaQueryList : Le (mediaQueryList env k) (mediaQueryList env l) := by unfold mediaQueryList; le [le_mediaQuery h]
theorem le_containerPrelude : Le (containerPrelude k) (containerPrelude l) := by unfold containerPrelude; le [le_condition h _]
theorem le_customMediaPrelude : Le (customMediaPrelude env k) (customMediaPrelude env l) := by
  unfold customMediaPrelude; le [le_mediaQueryList h]
theorem le_customSelectorPrelude : Le (customSelectorPrelude env k) (customSelectorPrelude env l) := by
  unfold customSelectorPrelude; le [le_selectorList h]
theorem le_importPrelude : Le (importPrelude k) (importPrelude l) := by unfold importPrelude; le [le_function h]
theorem le_nestPrelude : Le (nestPrelude env k) (nestPrelude env l) := by unfold nestPrelude; le [le_selector h]
theorem le_scopePrelude : Le (scopePrelude env k) (scopePrelude env l) := by unfold scopePrelude; le [le_selectorList h]
theorem le_preludeNode (m : Str) : Le (preludeNode env k m) (preludeNode env l m) := by
  unfold preludeNode sequencePrelude
  dsimp only
  le [le_containerPrelude h, le_customMediaPrelude h, le_customSelectorPrelude h, le_importPrelude h, le_mediaQueryList h,
    le_nestPrelude h, le_scopePrelude h, le_values h]
theorem le_atPrelude (m : Str) : Le (atPrelude env k m) (atPrelude env l m) := by unfold atPrelude; le [le_preludeNode h _]
theorem le_atBlock (m : Str) (b : Bool) : Le (atBlock env k m b) (atBlock env l m b) := by
  unfold atBlock
  dsimp only
  le
theorem le_atRuleInternal (b : Bool) : Le (atRuleInternal env k b) (atRuleInternal env l b) := by
  unfold atRuleInternal; le [le_atPrelude h _, le_atBlock h _ _]
theorem le_atRule (b : Bool) : Le (atRule env k b) (atRule env l b) := by unfold atRule; le [le_atRuleInternal h _]
theorem le_ruleInternal : Le (ruleInternal env k) (ruleInternal env l) := by unfold ruleInternal; le [le_selectorList h]
theorem le_rule : Le (rule env k) (rule env l) := by unfold rule; le [le_ruleInternal h]
theorem le_declarationInternal : Le (declarationInternal env k) (declarationInternal env l) := by
  unfold declarationInternal; le [le_values h]
theorem le_declaration : Le (declaration env k) (declaration env l) := by unfold declaration; le [le_declarationInternal h]
theorem le_blockItem (m : Mode) (c : List Node) (b : Bool) : Le (blockItem env k m c b) (blockItem env l m c b) := by
  unfold blockItem; le [le_rule h, le_declaration h]
theorem le_blockRound (m : Mode) (x : List Node × Bool) : Le (blockRound env k m x) (blockRound env l m x) := by
  unfold blockRound; le [le_blockItem h _ _ _, le_atRule h _]
theorem le_blockInner (m : Mode) : Le (blockInner env k m) (blockInner env l m) := by unfold blockInner; le [le_blockRound h _ _]
theorem le_sheetRound (x : List Node) : Le (sheetRound env k x) (sheetRound env l x) := by
  unfold sheetRound; le [le_atRule h _, le_rule h]
theorem le_sheet : Le (sheet env k) (sheet env l) := by unfold sheet; le [le_sheetRound h _]

theorem le_level : (level env k).Le (level env l) where
  block := le_blockInner h
  args := le_values h
  expr := le_calcExpr h
  pseudo := le_pseudoInner h
  cond := le_condition h

end values

theorem le_at (env : Env) : ∀ d, (Rec.at env d).Le (Rec.at env (d + 1))
  | 0 => ⟨fun _ _ => .inl rfl, fun _ => .inl rfl, fun _ => .inl rfl, fun _ _ => .inl rfl, fun _ _ => .inl rfl⟩
  | d + 1 => le_level (le_at env d)

theorem parseTree_step (env : Env) (d : Nat) (ts : List Token) (h : parseTree env d ts ≠ .deep) :
    parseTree env (d + 1) ts = parseTree env d ts :=
  (le_sheet (le_at env d) (PS.new ts)).resolve_left h

theorem parseTree_more (env : Env) (d : Nat) (ts : List Token) (h : parseTree env d ts ≠ .deep) : ∀ n,
    parseTree env (d + n) ts = parseTree env d ts
  | 0 => rfl
  | n + 1 => by
    have ih := parseTree_more env d ts h n
    rw [← Nat.add_assoc, parseTree_step env (d + n) ts (by rw [ih]; exact h), ih]

end Verif.CssParse
