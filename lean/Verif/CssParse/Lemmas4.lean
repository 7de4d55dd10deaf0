import Verif.CssParse.Lemmas3

/-! # C109: as many levels of stack as there are tokens are enough -/

namespace Verif.CssParse

open Verif.CssTok (Token)

/-- a step that never runs out of stack -/
def Flat {α : Type} (f : P α) : Prop := ∀ s, f s ≠ .deep

/-- a step that, with at most `n` to read, does not run out of stack, and makes no more to read -/
def Ends {α : Type} (n : Nat) (f : P α) : Prop := Good f ∧ ∀ s, phi s.next ≤ n → f s ≠ .deep

/-- the same after `t` has been consumed -/
def BackEnds {α : Type} (n : Nat) (t : Token) (f : P α) : Prop :=
  Back t f ∧ ∀ s, s.prev.head? = some t → phi (t :: s.next) ≤ n → f s ≠ .deep

section rules
variable {α β : Type}

theorem flat_pure (a : α) : Flat (pure a : P α) := fun _ h => by cases h
theorem flat_fail : Flat (fail : P α) := fun _ h => by cases h
theorem flat_consume : Flat consume := fun s h => by
  unfold consume at h
  split at h <;> cases h
theorem flat_reconsume : Flat reconsume := fun s h => by
  unfold reconsume at h
  split at h <;> cases h
theorem flat_lookahead (k : Nat) : Flat (lookahead k) := fun _ h => by cases h
theorem flat_lookaheadSc (k : Nat) : Flat (lookaheadSc k) := fun s h => by
  unfold lookaheadSc at h
  split at h <;> cases h
theorem flat_atEof : Flat atEof := fun _ h => by cases h
theorem flat_current : Flat current := fun _ h => by cases h
theorem flat_allowPush : Flat allowPush := fun _ h => by cases h
theorem flat_allowPop : Flat allowPop := fun _ h => by cases h
theorem flat_allowed : Flat allowed := fun _ h => by cases h
theorem flat_skipWs : Flat skipWs := fun _ h => by cases h
theorem flat_untilRuleEnd : Flat untilRuleEnd := fun _ h => by cases h
theorem flat_untilDeclEnd : Flat untilDeclEnd := fun _ h => by cases h
theorem flat_skipCustom : Flat skipCustom := fun _ h => by cases h
theorem flat_skipToDeclEnd : Flat skipToDeclEnd := fun _ h => by cases h
theorem flat_declarationBlock : Flat declarationBlock := fun _ h => by cases h
theorem flat_startsNested : Flat startsNested := fun _ h => by cases h
theorem flat_consumeRawCondition (env : Env) : Flat (consumeRawCondition env) := fun _ h => by cases h

theorem flat_bind {m : P α} {f : α → P β} (hm : Flat m) (hf : ∀ a, Flat (f a)) : Flat (m >>= f) := by
  intro s h
  rw [bind_run] at h
  cases e : m s with
  | ok a s' => rw [e] at h; exact hf a s' h
  | err s' => rw [e] at h; cases h
  | deep => exact hm s e
  | hang => rw [e] at h; cases h

theorem flat_forever {σ : Type} {body : σ → P (σ ⊕ β)} (h : ∀ x, Flat (body x)) (x : σ) : Flat (forever body x) := by
  have : ∀ n x, Flat (rounds body n x) := by
    intro n
    induction n with
    | zero => intro x s e; cases e
    | succ n ih =>
      intro x
      refine flat_bind (h x) fun r => ?_
      cases r with
      | inl y => exact ih y
      | inr b => exact flat_pure b
  exact fun s => this _ x s

end rules

syntax "flat" ("[" term,* "]")? : tactic
macro_rules
  | `(tactic| flat) => `(tactic| flat [])
  | `(tactic| flat [$ts,*]) => `(tactic| repeat' (first
      | exact flat_pure _
      | exact flat_fail
      | with_reducible exact flat_consume
      | with_reducible exact flat_reconsume
      | with_reducible exact flat_lookahead _
      | with_reducible exact flat_lookaheadSc _
      | with_reducible exact flat_atEof
      | with_reducible exact flat_current
      | with_reducible exact flat_allowed
      | with_reducible exact flat_skipWs
      $[| exact $ts]*
      | with_reducible refine flat_bind ?_ (fun _ => ?_)
      | split))

theorem flat_expect (t : Token) : Flat (expect t) := by unfold expect; flat
theorem flat_consumeFunction : Flat consumeFunction := by unfold consumeFunction; flat
theorem flat_consumeAnyNumber : Flat consumeAnyNumber := by unfold consumeAnyNumber; flat
theorem flat_consumeAnyDelim : Flat consumeAnyDelim := by unfold consumeAnyDelim; flat
theorem flat_consumeAnyString : Flat consumeAnyString := by unfold consumeAnyString; flat
theorem flat_consumeIdentCi (w : Str) : Flat (consumeIdentCi w) := by unfold consumeIdentCi; flat
theorem flat_consumeIdent (w : Str) : Flat (consumeIdent w) := by unfold consumeIdent; flat
theorem flat_consumeAnyIdent : Flat consumeAnyIdent := by unfold consumeAnyIdent; flat
theorem flat_url : Flat url := by unfold url; flat [flat_consumeFunction, flat_expect _]
theorem flat_operator : Flat operator := by unfold operator; flat
theorem flat_attributeOperator : Flat attributeOperator := by
  unfold attributeOperator
  refine flat_bind flat_consumeAnyDelim fun c => ?_
  by_cases hc : c ∈ ['=', '~', '|', '^', '$', '*']
  · rw [if_pos hc]
    flat [flat_expect _]
  · rw [if_neg hc]
    flat
theorem flat_classSelector : Flat classSelector := by unfold classSelector; flat [flat_expect _, flat_consumeAnyIdent]
theorem flat_nestingSelector : Flat nestingSelector := by unfold nestingSelector; flat [flat_expect _]
theorem flat_typeIdentOrAsterisk : Flat typeIdentOrAsterisk := by unfold typeIdentOrAsterisk; flat
theorem flat_typeSelector : Flat typeSelector := by unfold typeSelector; flat [flat_typeIdentOrAsterisk]
theorem flat_attributeValue (t : Token) : Flat (attributeValue t) := by
  unfold attributeValue; flat [flat_attributeOperator, flat_consumeAnyString, flat_consumeAnyIdent]
theorem flat_attributeFlags : Flat attributeFlags := by unfold attributeFlags; flat [flat_consumeAnyIdent]
theorem flat_attributeSelector : Flat attributeSelector := by
  unfold attributeSelector; flat [flat_attributeValue _, flat_attributeFlags, flat_expect _, flat_consumeAnyIdent]
theorem flat_idSelector : Flat idSelector := by unfold idSelector; flat [flat_expect _]
theorem flat_combinator : Flat combinator := by unfold combinator; flat
theorem flat_expectChar (v : Str) (c : Char) (n : Nat) : Flat (expectChar v c n) := by unfold expectChar; flat
theorem flat_checkInteger (v : Str) (n : Nat) : Flat (checkInteger v n) := by unfold checkInteger; flat
theorem flat_anPlusB_b (env : Env) : Flat (anPlusB_b env) := by
  unfold anPlusB_b; flat [flat_expect _, flat_consumeAnyNumber]
theorem flat_dimensionBlock (env : Env) (v u : Str) : Flat (dimensionBlock env v u) := by
  unfold dimensionBlock; flat [flat_anPlusB_b _]
theorem flat_negativeBlock (env : Env) (v : Str) : Flat (negativeBlock env v) := by
  unfold negativeBlock; flat [flat_anPlusB_b _, flat_expectChar _ _ _, flat_checkInteger _ _, flat_consumeAnyNumber]
theorem flat_plusBlock (env : Env) (v : Str) : Flat (plusBlock env v) := by
  unfold plusBlock; flat [flat_anPlusB_b _, flat_expectChar _ _ _, flat_checkInteger _ _, flat_consumeAnyNumber]
theorem flat_anPlusB (env : Env) : Flat (anPlusB env) := by
  unfold anPlusB
  flat [flat_consumeAnyNumber, flat_negativeBlock _ _, flat_plusBlock _ _, flat_dimensionBlock _ _ _, flat_consumeAnyIdent]
theorem flat_pseudoIdentSequence : Flat pseudoIdentSequence := by
  unfold pseudoIdentSequence
  exact flat_bind (flat_forever (fun _ => by flat [flat_consumeAnyIdent]) _) fun _ => flat_pure _
theorem flat_mediaComparison : Flat mediaComparison := by unfold mediaComparison; flat [flat_consumeAnyDelim]
theorem flat_layerQuery : Flat layerQuery := by
  unfold layerQuery
  exact flat_bind flat_consumeAnyIdent fun _ => flat_bind (flat_forever (fun _ => by flat) _) fun _ => flat_pure _
theorem flat_layerPrelude : Flat layerPrelude := by
  unfold layerPrelude
  exact flat_bind flat_skipWs fun _ => flat_bind (flat_forever (fun _ => by flat [flat_layerQuery]) _) fun _ => flat_pure _
theorem flat_important : Flat important := by unfold important; flat [flat_consumeIdent _]

/-! ## Rules -/

section rules
variable {α β : Type} {n : Nat}

theorem ends_flat {f : P α} (hg : Good f) (hf : Flat f) : Ends n f := ⟨hg, fun s _ => hf s⟩

theorem ends_bind {m : P α} {f : α → P β} (hm : Ends n m) (hf : ∀ a, Ends n (f a)) : Ends n (m >>= f) := by
  refine ⟨good_bind hm.1 fun a => (hf a).1, fun s hs h => ?_⟩
  have h1 := hm.1 s
  rw [bind_run] at h
  cases e : m s with
  | ok a s' => rw [e] at h h1; exact (hf a).2 s' (Nat.le_trans (Rem.le h1) hs) h
  | err s' => rw [e] at h; cases h
  | deep => exact hm.2 s hs e
  | hang => rw [e] at h; cases h

theorem ends_consume_bind {f : Token → P β} (hf : ∀ t, BackEnds n t (f t)) : Ends n (consume >>= f) := by
  refine ⟨good_consume_bind fun t => (hf t).1, fun s hs h => ?_⟩
  cases hn : s.next with
  | nil =>
    rw [bind_ok (consume_nil hn)] at h
    exact (hf .eof).2 _ rfl (by simp only [hn]; rw [hn] at hs; exact hs) h
  | cons t r =>
    rw [bind_ok (consume_cons hn)] at h
    exact (hf t).2 _ rfl (by rw [hn] at hs; exact hs) h

theorem backEnds_ends {t : Token} {f : P α} (hf : Ends n f) : BackEnds n t f :=
  ⟨back_good hf.1, fun s _ hp => hf.2 s (Nat.le_trans (phi_tail t s.next) hp)⟩

/-- one level down after a token that is there -/
theorem backEnds_down {t : Token} (ht : t ≠ .eof) {f : P α} (hf : Ends n f) : BackEnds (n + 1) t f :=
  ⟨back_good hf.1, fun s _ hp => hf.2 s (by rw [phi_live ht] at hp; omega)⟩

theorem backEnds_reconsume {t : Token} {f : Unit → P α} (hf : Ends n (f ())) : BackEnds n t (reconsume >>= f) := by
  refine ⟨back_reconsume hf.1, fun s hs hp h => ?_⟩
  obtain ⟨p, hq⟩ := prev_head hs
  have e : reconsume s = .ok () { s with prev := p, next := t :: s.next } := by
    unfold reconsume
    rw [hq]
  rw [bind_ok e] at h
  exact hf.2 _ hp h

theorem backEnds_reconsume' {t : Token} : BackEnds n t reconsume := ⟨back_reconsume', fun s _ _ => flat_reconsume s⟩

theorem backEnds_look {t : Token} (ht : t ≠ .eof) {m : P α} {f : α → P β} (hm : Good m) (hfl : Flat m)
    (hp : ∀ s a s', m s = .ok a s' → s'.prev = s.prev) (hf : ∀ a, BackEnds n t (f a)) : BackEnds n t (m >>= f) := by
  refine ⟨back_look ht hm hp fun a => (hf a).1, fun s hs hq h => ?_⟩
  have h1 := hm s
  rw [bind_run] at h
  cases e : m s with
  | ok a s' =>
    rw [e] at h h1
    refine (hf a).2 s' (by rw [hp _ _ _ e]; exact hs) ?_ h
    have := Rem.le h1
    rw [phi_live ht] at hq ⊢
    omega
  | err s' => rw [e] at h; cases h
  | deep => exact hfl s e
  | hang => rw [e] at h; cases h

theorem backEnds_bind {t : Token} {m : P α} {f : α → P β} (hm : BackEnds n t m) (hf : ∀ a, Ends n (f a)) : BackEnds n t (m >>= f) := by
  refine ⟨back_bind hm.1 fun a => (hf a).1, fun s hs hq h => ?_⟩
  have h1 := hm.1 s hs
  rw [bind_run] at h
  cases e : m s with
  | ok a s' => rw [e] at h h1; exact (hf a).2 s' (Nat.le_trans (Rem.le h1) hq) h
  | err s' => rw [e] at h; cases h
  | deep => exact hm.2 s hs hq e
  | hang => rw [e] at h; cases h

/-- one level down after a step that reads something -/
theorem ends_strict_bind {m : P α} {f : α → P β} (hs : Strict (fun _ => True) m) (hm : Ends (n + 1) m) (hf : ∀ a, Ends n (f a)) :
    Ends (n + 1) (m >>= f) := by
  refine ⟨good_bind hm.1 fun a => (hf a).1, fun s hn h => ?_⟩
  rw [bind_run] at h
  cases e : m s with
  | ok a s' =>
    rw [e] at h
    have := hs _ _ _ e trivial
    exact (hf a).2 s' (by omega) h
  | err s' => rw [e] at h; cases h
  | deep => exact hm.2 s hn e
  | hang => rw [e] at h; cases h

theorem ends_recurse {f : P α} (hf : Ends n f) : Ends n (recurse f) := by
  refine ⟨good_recurse hf.1, fun s hs h => ?_⟩
  unfold recurse at h
  split at h
  · cases h
  · cases e : f { s with depth := s.depth + 1 } <;> rw [e] at h <;> cases h
    exact hf.2 { s with depth := s.depth + 1 } hs e

theorem ends_attempt {f : P α} (hf : Ends n f) : Ends n (attempt f) := by
  refine ⟨good_attempt hf.1, fun s hs h => ?_⟩
  unfold attempt at h
  cases e : f s <;> rw [e] at h <;> cases h
  exact hf.2 _ hs e

theorem ends_thenPop {f : P α} (hf : Ends n f) : Ends n (thenPop f) := by
  refine ⟨good_thenPop hf.1, fun s hs h => ?_⟩
  unfold thenPop at h
  cases e : f s <;> rw [e] at h <;> cases h
  exact hf.2 _ hs e

theorem ends_forever {σ : Type} {body : σ → P (σ ⊕ β)} {x : σ} (hg : Good (forever body x)) (h : ∀ x, Ends n (body x)) : Ends n (forever body x) := by
  refine ⟨hg, ?_⟩
  have : ∀ m x s, phi s.next ≤ n → rounds body m x s ≠ .deep := by
    intro m
    induction m with
    | zero => intro x s _ e; cases e
    | succ m ih =>
      intro x s hs e
      have h1 := (h x).1 s
      unfold rounds at e
      rw [bind_run] at e
      cases eb : body x s with
      | ok r s' =>
        rw [eb] at e h1
        cases r with
        | inl y => exact ih y s' (Nat.le_trans (Rem.le h1) hs) e
        | inr b => cases e
      | err s' => rw [eb] at e; cases e
      | deep => exact (h x).2 s hs eb
      | hang => rw [eb] at e; cases e
  exact fun s hs => this _ x s hs

theorem ends_loop {σ : Type} {body : σ → P (σ ⊕ β)} (h : ∀ x, Ends n (body x)) (hs : ∀ x, Strict Goes (body x)) (x : σ) :
    Ends n (forever body x) :=
  ends_forever (good_loop (fun x => (h x).1) hs x) h

end rules

/-- what one level down has to do -/
structure Rec.Ends (n : Nat) (k : Rec) : Prop where
  block : ∀ m, CssParse.Ends n (k.block m)
  args : CssParse.Ends n k.args
  expr : CssParse.Ends n k.expr
  pseudo : ∀ m, CssParse.Ends n (k.pseudo m)
  cond : ∀ c, CssParse.Ends n (k.cond c)

/-- closes the goals that follow from the rules -/
syntax "ends" ("[" term,* "]")? : tactic
macro_rules
  | `(tactic| ends) => `(tactic| ends [])
  | `(tactic| ends [$ts,*]) => `(tactic| repeat' (first
      | exact ends_flat (good_pure _) (flat_pure _)
      | exact ends_flat good_fail flat_fail
      | with_reducible exact ends_flat good_consume flat_consume
      | with_reducible exact ends_flat good_atEof flat_atEof
      | with_reducible exact ends_flat good_current flat_current
      | with_reducible exact ends_flat good_allowPush flat_allowPush
      | with_reducible exact ends_flat good_allowPop flat_allowPop
      | with_reducible exact ends_flat good_allowed flat_allowed
      | with_reducible exact ends_flat good_skipWs flat_skipWs
      | with_reducible exact ends_flat (good_expect _) (flat_expect _)
      | with_reducible exact ends_flat good_consumeAnyIdent flat_consumeAnyIdent
      | with_reducible exact ends_flat (good_consumeIdent _) (flat_consumeIdent _)
      | with_reducible exact ends_flat (good_consumeIdentCi _) (flat_consumeIdentCi _)
      | with_reducible exact ends_flat good_consumeFunction flat_consumeFunction
      | with_reducible exact ends_flat good_url flat_url
      | with_reducible exact backEnds_reconsume'
      | exact ends_flat (good_lookahead (by omega)) (flat_lookahead _)
      | exact ends_flat (good_lookaheadSc (by omega)) (flat_lookaheadSc _)
      | with_reducible exact Rec.Ends.block ‹_› _
      | with_reducible exact Rec.Ends.args ‹_›
      | with_reducible exact Rec.Ends.expr ‹_›
      | with_reducible exact Rec.Ends.pseudo ‹_› _
      | with_reducible exact Rec.Ends.cond ‹_› _
      $[| with_reducible exact $ts]*
      | with_reducible refine ends_recurse ?_
      | with_reducible refine ends_attempt ?_
      | with_reducible refine ends_thenPop ?_
      | with_reducible refine ends_consume_bind fun _ => ?_
      | with_reducible refine backEnds_reconsume ?_
      | with_reducible refine ends_bind ?_ (fun _ => ?_)
      | split
      | refine backEnds_ends ?_))

section values
variable {env : Env} {k : Rec} {n : Nat} (hk : k.Good) (hn : k.Ends n)
include hk hn

theorem ends_calcExpr : Ends (n + 1) (calcExpr env k) := by
  unfold calcExpr
  refine ends_bind (ends_loop (fun e => ?_) (fun e => ?_) _) (fun _ => by ends)
  · refine ends_consume_bind fun t => ?_
    split
    case h_2 => exact backEnds_down (by simp) (by ends)
    case h_3 => exact backEnds_down (by simp) (by ends)
    all_goals ends
  · exact strict_consume_bind (fun u hu => kept_good hu (by good)) (by never)

theorem ends_calcValue : Ends (n + 1) (calcValue env k) := by unfold calcValue; ends [ends_calcExpr hk hn]

theorem ends_function : Ends (n + 1) (function k) := by
  unfold function
  exact ends_strict_bind strict_consumeFunction (by ends) fun _ => by ends

theorem ends_identValue (v : Str) : Ends (n + 1) (identValue env k v) := by
  unfold identValue; ends [ends_function hk hn]

theorem ends_value : Ends (n + 1) (value env k) := by
  unfold value
  ends [ends_calcValue hk hn, ends_function hk hn, ends_identValue hk hn _, ends_flat good_operator flat_operator]

theorem ends_values : Ends (n + 1) (values env k) := by
  have hg := good_values (env := env) hk
  unfold values at hg ⊢
  refine ends_forever hg fun e => ?_
  ends [ends_value hk hn]

/-! ## Selectors -/

theorem ends_pseudoElementSelector : Ends (n + 1) (pseudoElementSelector env k) := by
  unfold pseudoElementSelector
  exact ends_strict_bind (strict_expect (by decide)) (by ends) fun _ => by ends

theorem ends_pseudoSelector : Ends (n + 1) (pseudoSelector env k) := by
  unfold pseudoSelector
  exact ends_strict_bind (strict_expect (by decide)) (by ends) fun _ => by ends

theorem backEnds_selectorPart (t : Token) : BackEnds (n + 1) t (selectorPart env k t) := by
  unfold selectorPart
  by_cases ht : t = .eof
  · subst ht
    ends
  · split
    case h_3 =>
      refine backEnds_look ht (good_lookahead (by omega)) (flat_lookahead _) lookahead_prev fun a => ?_
      split
      · exact backEnds_reconsume (by ends [ends_pseudoElementSelector hk hn])
      · exact backEnds_reconsume (by ends [ends_pseudoSelector hk hn])
    all_goals ends [ends_flat good_attributeSelector flat_attributeSelector, ends_flat good_combinator flat_combinator,
      ends_flat good_classSelector flat_classSelector, ends_flat good_typeSelector flat_typeSelector,
      ends_flat good_idSelector flat_idSelector, ends_flat good_nestingSelector flat_nestingSelector]

theorem ends_selectorRound (x : SelState) : Ends (n + 1) (selectorRound env k x) := by
  unfold selectorRound
  refine ends_bind (by ends) fun b => ?_
  split
  · ends
  · refine ends_consume_bind fun t => ?_
    split
    · ends
    · exact backEnds_bind (backEnds_selectorPart hk hn t) fun o => by ends

theorem ends_selector : Ends (n + 1) (selector env k) := by
  unfold selector
  exact ends_bind (ends_loop (ends_selectorRound hk hn) (strict_selectorRound hk) _) fun _ => by ends

theorem ends_selectorList : Ends (n + 1) (selectorList env k) := by
  unfold selectorList
  refine ends_bind (ends_loop (fun acc => ?_) (fun acc => ?_) _) fun _ => by ends
  · ends [ends_selector hk hn]
  · refine strict_right good_atEof fun b => ?_
    split
    · exact strict_never (by never)
    · exact strict_right (good_selector hk) fun _ => strict_comma (good_pure _)

theorem ends_pseudoNth : Ends (n + 1) (pseudoNth env k) := by
  unfold pseudoNth; ends [ends_flat good_anPlusB (flat_anPlusB _), ends_selectorList hk hn]

theorem ends_pseudoInner (m : Str) : Ends (n + 1) (pseudoInner env k m) := by
  unfold pseudoInner pseudoIdentList
  ends [ends_selectorList hk hn, ends_pseudoNth hk hn, ends_selector hk hn,
    ends_flat good_pseudoIdentSequence flat_pseudoIdentSequence]

/-! ## Media queries -/

theorem ends_mediaTerm : Ends (n + 1) (mediaTerm k) := by unfold mediaTerm; ends [ends_function hk hn]

theorem ends_mediaFeatureValue : Ends (n + 1) (mediaFeatureValue k) := by
  unfold mediaFeatureValue; ends [ends_function hk hn, ends_mediaTerm hk hn]

theorem ends_mediaFeature (kind : Kind) : Ends (n + 1) (mediaFeature k kind) := by
  unfold mediaFeature; ends [ends_mediaFeatureValue hk hn]

theorem ends_mediaRange : Ends (n + 1) (mediaRange k) := by
  unfold mediaRange; ends [ends_mediaTerm hk hn, ends_flat good_mediaComparison flat_mediaComparison]

theorem ends_mediaFeatureOrRange (kind : Kind) : Ends (n + 1) (mediaFeatureOrRange k kind) := by
  unfold mediaFeatureOrRange; ends [ends_mediaFeature hk hn _, ends_mediaRange hk hn]

theorem ends_conditionRound (kind : Kind) (acc : List Node) : Ends (n + 1) (conditionRound k kind acc) := by
  unfold conditionRound
  refine ends_consume_bind fun t => ?_
  split
  case h_4 =>
    refine backEnds_reconsume ?_
    split
    · ends
    · refine ends_bind (ends_attempt (ends_mediaFeatureOrRange hk hn kind)) fun o => ?_
      cases o with
      | some _ => ends
      | none => exact ends_strict_bind (strict_expect (by decide)) (by ends) fun _ => by ends
  all_goals ends

theorem ends_condition (kind : Kind) : Ends (n + 1) (condition k kind) := by
  unfold condition
  refine ends_bind (ends_loop (ends_conditionRound hk hn kind) (strict_conditionRound hk kind) _) fun _ => ?_
  ends

theorem ends_mediaQuery : Ends (n + 1) (mediaQuery env k) := by
  unfold mediaQuery
  refine ends_bind (by ends) fun _ => ends_consume_bind fun t => ?_
  by_cases ht : t = .eof
  · subst ht
    exact backEnds_ends (by ends)
  · refine backEnds_look ht (good_lookaheadSc (by omega)) (flat_lookaheadSc _) lookaheadSc_prev fun nt => ?_
    ends [ends_condition hk hn _]

theorem ends_mediaQueryList : Ends (n + 1) (mediaQueryList env k) := by
  unfold mediaQueryList
  refine ends_bind (ends_loop (fun acc => ?_) (fun acc => ?_) _) fun _ => by ends
  · ends [ends_mediaQuery hk hn]
  · refine strict_right good_atEof fun b => ?_
    split
    · exact strict_never (by never)
    · exact strict_right (good_mediaQuery hk) fun _ => strict_right good_skipWs fun _ => strict_comma (good_pure _)

/-! ## At-rules -/

theorem ends_containerPrelude : Ends (n + 1) (containerPrelude k) := by unfold containerPrelude; ends [ends_condition hk hn _]

theorem ends_customMediaPrelude : Ends (n + 1) (customMediaPrelude env k) := by
  unfold customMediaPrelude; ends [ends_mediaQueryList hk hn]

theorem ends_customSelectorPrelude : Ends (n + 1) (customSelectorPrelude env k) := by
  unfold customSelectorPrelude; ends [ends_selectorList hk hn]

theorem ends_importPrelude : Ends (n + 1) (importPrelude k) := by
  unfold importPrelude; ends [ends_function hk hn]

theorem ends_nestPrelude : Ends (n + 1) (nestPrelude env k) := by
  unfold nestPrelude
  refine ends_bind (ends_loop (fun acc => ?_) (fun acc => ?_) _) fun _ => by ends
  · ends [ends_selector hk hn]
  · refine strict_right good_atEof fun b => ?_
    split
    · exact strict_never (by never)
    · exact strict_right (good_selector hk) fun _ => strict_right good_skipWs fun _ => strict_comma (good_pure _)

theorem ends_scopePrelude : Ends (n + 1) (scopePrelude env k) := by
  unfold scopePrelude; ends [ends_selectorList hk hn]

omit hk hn in
theorem ends_ite {α : Type} {c : Prop} [Decidable c] {a b : P α} (ha : Ends n a) (hb : Ends n b) : Ends n (if c then a else b) := by
  split <;> assumption

theorem ends_preludeNode (m : Str) : Ends (n + 1) (preludeNode env k m) := by
  unfold preludeNode supportsPrelude sequencePrelude
  dsimp only
  iterate 11 (refine ends_ite ?_ ?_; rotate_left)
  all_goals ends [ends_containerPrelude hk hn, ends_customMediaPrelude hk hn, ends_customSelectorPrelude hk hn,
    ends_importPrelude hk hn, ends_flat good_layerPrelude flat_layerPrelude, ends_mediaQueryList hk hn, ends_nestPrelude hk hn,
    ends_scopePrelude hk hn, ends_flat (good_consumeRawCondition _) (flat_consumeRawCondition _), ends_values hk hn]

theorem ends_atPrelude (m : Str) : Ends (n + 1) (atPrelude env k m) := by
  unfold atPrelude; ends [ends_preludeNode hk hn _]

theorem ends_atBlock (m : Str) (b : Bool) : Ends (n + 1) (atBlock env k m b) := by
  unfold atBlock
  refine ends_consume_bind fun t => ?_
  split
  · ends
  · rename_i ht
    refine backEnds_down (by intro e; subst e; simp at ht) ?_
    dsimp only
    ends [ends_flat good_declarationBlock flat_declarationBlock]

theorem ends_atRuleInternal (b : Bool) : Ends (n + 1) (atRuleInternal env k b) := by
  unfold atRuleInternal; ends [ends_atPrelude hk hn _, ends_atBlock hk hn _ _]

theorem ends_atRule (b : Bool) : Ends (n + 1) (atRule env k b) := by
  unfold atRule; ends [ends_atRuleInternal hk hn _, ends_flat good_untilRuleEnd flat_untilRuleEnd]

/-! ## Rules, declarations and blocks -/

theorem ends_ruleInternal : Ends (n + 1) (ruleInternal env k) := by
  unfold ruleInternal
  exact ends_bind (ends_selectorList hk hn) fun _ => ends_strict_bind (strict_expect (by decide)) (by ends) fun _ => by ends

theorem ends_rule : Ends (n + 1) (rule env k) := by
  unfold rule; ends [ends_ruleInternal hk hn, ends_flat good_untilRuleEnd flat_untilRuleEnd]

theorem ends_declarationInternal : Ends (n + 1) (declarationInternal env k) := by
  unfold declarationInternal
  ends [ends_values hk hn, ends_flat good_important flat_important, ends_flat good_skipCustom flat_skipCustom]

theorem ends_declaration : Ends (n + 1) (declaration env k) := by
  unfold declaration; ends [ends_declarationInternal hk hn, ends_flat good_untilDeclEnd flat_untilDeclEnd]

theorem backEnds_blockItem (mode : Mode) (c : List Node) (semi : Bool) (t : Token) :
    BackEnds (n + 1) t (blockItem env k mode c semi) := by
  unfold blockItem
  ends [ends_rule hk hn, ends_declaration hk hn, ends_flat good_skipToDeclEnd flat_skipToDeclEnd,
    ends_flat good_startsNested flat_startsNested]

theorem ends_blockRound (mode : Mode) (x : List Node × Bool) : Ends (n + 1) (blockRound env k mode x) := by
  unfold blockRound
  refine ends_bind (by ends) fun b => ?_
  split
  · ends
  · refine ends_consume_bind fun t => ?_
    split
    case h_5 => exact backEnds_bind (backEnds_blockItem hk hn mode _ _ t) fun _ => by ends
    all_goals ends [ends_atRule hk hn _]

theorem ends_blockInner (mode : Mode) : Ends (n + 1) (blockInner env k mode) := by
  unfold blockInner
  refine ends_bind (ends_forever ?_ (ends_blockRound hk hn mode)) fun _ => by ends
  exact good_forever (fun y => weight y.2) (fun y => by unfold weight; split <;> omega) (round_blockRound hk mode) _

theorem ends_sheetRound (acc : List Node) : Ends (n + 1) (sheetRound env k acc) := by
  unfold sheetRound; ends [ends_atRule hk hn _, ends_rule hk hn]

theorem ends_sheet : Ends (n + 1) (sheet env k) := by
  unfold sheet
  refine ends_bind (ends_forever ?_ (ends_sheetRound hk hn)) fun _ => by ends
  exact good_forever (fun _ => 0) (fun _ => by omega) (round_sheetRound hk) _

theorem ends_level : (level env k).Ends (n + 1) where
  block := ends_blockInner hk hn
  args := ends_values hk hn
  expr := ends_calcExpr hk hn
  pseudo := ends_pseudoInner hk hn
  cond := ends_condition hk hn

end values

/-- nothing is read with nothing to read, as `phi` is never below three -/
theorem ends_zero {α : Type} {f : P α} (hf : Good f) : Ends 0 f :=
  ⟨hf, fun s h => by unfold phi at h; omega⟩

theorem ends_at (env : Env) : ∀ d, (Rec.at env d).Ends d
  | 0 => ⟨fun m => ends_zero ((good_at env 0).block m), ends_zero (good_at env 0).args, ends_zero (good_at env 0).expr,
      fun m => ends_zero ((good_at env 0).pseudo m), fun c => ends_zero ((good_at env 0).cond c)⟩
  | d + 1 => ends_level (good_at env d) (ends_at env d)

theorem parseTree_shallow (env : Env) (d : Nat) (ts : List Token) (h : ts.length + 2 ≤ d) : parseTree env d ts ≠ .deep := by
  refine (ends_sheet (good_at env d) (ends_at env d)).2 _ ?_
  have := (phi_len ts).2
  show phi ts ≤ _
  omega

end Verif.CssParse
