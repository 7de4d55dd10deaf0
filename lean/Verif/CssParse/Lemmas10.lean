import Verif.CssParse.Lemmas3

/-! # C110: as many levels of stack as the cap, and one more for each `(`, are enough -/

namespace Verif.CssParse

open Verif.CssTok (Token)

/-- how many `(` there are -/
def parens (l : List Token) : Nat := l.count .lParen

theorem parens_cons (t : Token) (l : List Token) : parens (t :: l) = parens l + (if t = .lParen then 1 else 0) := by
  simp [parens, List.count_cons]

theorem parens_tail (t : Token) (l : List Token) : parens l ≤ parens (t :: l) := by rw [parens_cons]; omega

theorem parens_append (a b : List Token) : parens (a ++ b) = parens a + parens b := by simp [parens]

theorem parens_eofs (n : Nat) : parens (List.replicate n .eof) = 0 :=
  List.count_eq_zero.2 (by simp)

theorem parens_pad (k : Nat) (l : List Token) : parens (pad k l) = parens l := by
  simp [pad, parens_append, parens_eofs]

/-- how a step that began at depth `d` with `m` times `(` to read ends: at the same depth, with no more of them to read; if it ran
out of stack, `n` levels are not more than the rest of the cap and these -/
def Res.Low {α : Type} (n d m : Nat) : Res α → Prop
  | .ok _ s => s.depth = d ∧ parens s.next ≤ m
  | .err s => s.depth = d ∧ parens s.next ≤ m
  | .deep => n ≤ 64 - d + m
  | .hang => True

/-- the same, and after an error there are fewer to read -/
def Res.LowErr {α : Type} (n d m : Nat) : Res α → Prop
  | .ok _ s => s.depth = d ∧ parens s.next ≤ m
  | .err s => s.depth = d ∧ parens s.next < m
  | .deep => n ≤ 64 - d + m
  | .hang => True

def Low {α : Type} (n : Nat) (f : P α) : Prop := ∀ s, s.depth ≤ 64 → (f s).Low n s.depth (parens s.next)

/-- the same after `t` has been consumed -/
def BackLow {α : Type} (n : Nat) (t : Token) (f : P α) : Prop :=
  ∀ s, s.prev.head? = some t → s.depth ≤ 64 → (f s).Low n s.depth (parens (t :: s.next))

theorem Res.Low.mono {α : Type} {n d m m' : Nat} {r : Res α} (h : r.Low n d m) (hm : m ≤ m') : r.Low n d m' := by
  cases r with
  | ok _ s => exact ⟨h.1, Nat.le_trans h.2 hm⟩
  | err s => exact ⟨h.1, Nat.le_trans h.2 hm⟩
  | deep => simp only [Res.Low] at h ⊢; omega
  | hang => trivial

section rules
variable {α β : Type} {n : Nat}

theorem low_bind_at {m : P α} {f : α → P β} {s : PS} {d p : Nat} (hd : d ≤ 64) (hm : (m s).Low n d p) (hf : ∀ a, Low n (f a)) :
    ((m >>= f) s).Low n d p := by
  rw [bind_run]
  cases e : m s with
  | ok a s' =>
    rw [e] at hm
    have := hf a s' (by rw [hm.1]; exact hd)
    rw [hm.1] at this
    exact this.mono hm.2
  | err s' => rw [e] at hm; exact hm
  | deep => rw [e] at hm; exact hm
  | hang => trivial

theorem low_bind {m : P α} {f : α → P β} (hm : Low n m) (hf : ∀ a, Low n (f a)) : Low n (m >>= f) :=
  fun s hs => low_bind_at hs (hm s hs) hf

theorem low_consume_bind {f : Token → P β} (hf : ∀ t, BackLow n t (f t)) : Low n (consume >>= f) := by
  intro s hs
  cases hn : s.next with
  | nil =>
    rw [bind_ok (consume_nil hn)]
    have := hf .eof { s with prev := .eof :: s.prev } rfl hs
    simp only [hn] at this ⊢
    exact this
  | cons t r =>
    rw [bind_ok (consume_cons hn)]
    exact hf t { s with prev := t :: s.prev, next := r } rfl hs

theorem backLow_low {t : Token} {f : P α} (hf : Low n f) : BackLow n t f :=
  fun s _ hd => (hf s hd).mono (parens_tail t s.next)

theorem backLow_reconsume {t : Token} {f : Unit → P α} (hf : Low n (f ())) : BackLow n t (reconsume >>= f) := by
  intro s hs hd
  obtain ⟨p, hq⟩ := prev_head hs
  have e : reconsume s = .ok () { s with prev := p, next := t :: s.next } := by
    unfold reconsume
    rw [hq]
  rw [bind_ok e]
  exact hf { s with prev := p, next := t :: s.next } hd

theorem low_pure (a : α) : Low n (pure a : P α) := fun _ _ => ⟨rfl, Nat.le_refl _⟩
theorem low_fail : Low n (fail : P α) := fun _ _ => ⟨rfl, Nat.le_refl _⟩

theorem low_fail_bind {f : α → P β} : Low n ((fail : P α) >>= f) := fun _ _ => ⟨rfl, Nat.le_refl _⟩

theorem backLow_reconsume' {t : Token} : BackLow n t reconsume := by
  have := backLow_reconsume (n := n) (t := t) (f := fun u => (pure u : P Unit)) (low_pure _)
  intro s hs hd
  have h := this s hs hd
  rw [bind_run] at h
  cases e : reconsume s <;> rw [e] at h <;> exact h

theorem backLow_look {t : Token} {m : P α} {f : α → P β}
    (hp : ∀ s a s', m s = .ok a s' → s'.prev = s.prev) (hm : ∀ s, ∃ a s', m s = .ok a s' ∧ s'.depth = s.depth ∧ parens s'.next ≤ parens s.next)
    (hf : ∀ a, BackLow n t (f a)) : BackLow n t (m >>= f) := by
  intro s hs hd
  obtain ⟨a, s', e, h1, h2⟩ := hm s
  rw [bind_ok e]
  have := hf a s' (by rw [hp _ _ _ e]; exact hs) (by rw [h1]; exact hd)
  rw [h1] at this
  refine this.mono ?_
  rw [parens_cons, parens_cons]
  omega

theorem backLow_pure_bind {t : Token} {a : α} {f : α → P β} (hf : BackLow n t (f a)) : BackLow n t ((pure a : P α) >>= f) := hf

theorem backLow_bind {t : Token} {m : P α} {f : α → P β} (hm : BackLow n t m) (hf : ∀ a, Low n (f a)) : BackLow n t (m >>= f) :=
  fun s hs hd => low_bind_at hd (hm s hs hd) hf

/-- one level down below the cap -/
theorem low_recurse {f : P α} (hf : Low n f) : Low (n + 1) (recurse f) := by
  intro s hs
  unfold recurse
  split
  · exact ⟨rfl, Nat.le_refl _⟩
  · rename_i h
    have hlt : s.depth < 64 := by unfold maxDepth at h; omega
    have := hf { s with depth := s.depth + 1 } (by show s.depth + 1 ≤ 64; omega)
    cases e : f { s with depth := s.depth + 1 } with
    | ok a s' => rw [e] at this; exact ⟨by have := this.1; simp only at this ⊢; omega, this.2⟩
    | err s' => rw [e] at this; exact ⟨by have := this.1; simp only at this ⊢; omega, this.2⟩
    | deep => rw [e] at this; simp only [Res.Low] at this ⊢; omega
    | hang => trivial

theorem low_attempt {f : P α} (hf : Low n f) : Low n (attempt f) := by
  intro s hs
  have := hf s hs
  unfold attempt
  cases e : f s <;> rw [e] at this <;> exact this

theorem low_thenPop {f : P α} (hf : Low n f) : Low n (thenPop f) := by
  intro s hs
  have := hf s hs
  unfold thenPop
  cases e : f s <;> rw [e] at this <;> exact this

theorem low_forever {σ : Type} {body : σ → P (σ ⊕ β)} (h : ∀ x, Low n (body x)) (x : σ) : Low n (forever body x) := by
  have : ∀ m x, Low n (rounds body m x) := by
    intro m
    induction m with
    | zero => intro x s _; trivial
    | succ m ih =>
      intro x
      refine low_bind (h x) fun r => ?_
      cases r with
      | inl y => exact ih y
      | inr b => exact low_pure b
  exact fun s => this _ x s

theorem low_consume : Low n consume := by
  intro s _
  cases hn : s.next with
  | nil => rw [consume_nil hn]; exact ⟨rfl, by simp only [hn]; exact Nat.le_refl _⟩
  | cons t r => rw [consume_cons hn]; exact ⟨rfl, parens_tail t r⟩
theorem low_lookahead (k : Nat) : Low n (lookahead k) := fun s _ => ⟨rfl, Nat.le_of_eq (parens_pad k s.next)⟩
theorem lookaheadSc_at (k : Nat) (s : PS) : ∃ a s', lookaheadSc k s = .ok a s' ∧ s'.depth = s.depth ∧ parens s'.next ≤ parens s.next := by
  unfold lookaheadSc
  split
  · exact ⟨_, _, rfl, rfl, Nat.le_of_eq (parens_pad k s.next)⟩
  · refine ⟨_, _, rfl, rfl, Nat.le_of_eq ?_⟩
    simp only [parens_append, parens_pad]
    rfl
theorem low_lookaheadSc (k : Nat) : Low n (lookaheadSc k) := by
  intro s _
  obtain ⟨a, s', e, h⟩ := lookaheadSc_at k s
  rw [e]
  exact h
theorem low_atEof : Low n atEof := fun _ _ => ⟨rfl, Nat.le_refl _⟩
theorem low_current : Low n current := fun _ _ => ⟨rfl, Nat.le_refl _⟩
theorem low_allowPush : Low n allowPush := fun _ _ => ⟨rfl, Nat.le_refl _⟩
theorem low_allowPop : Low n allowPop := fun _ _ => ⟨rfl, Nat.le_refl _⟩
theorem low_allowed : Low n allowed := fun _ _ => ⟨rfl, Nat.le_refl _⟩

theorem parens_wsLoop (p l : List Token) : parens (wsLoop p l).2 ≤ parens l := by
  fun_induction wsLoop p l <;> first
    | exact Nat.le_refl _
    | exact parens_tail _ _
    | (rename_i ih; exact Nat.le_trans ih (parens_tail _ _))
theorem low_skipWs : Low n skipWs := fun s _ => ⟨rfl, parens_wsLoop s.prev s.next⟩
theorem parens_rawLoop (p l : List Token) : parens (rawLoop p l).2 ≤ parens l := by
  fun_induction rawLoop p l <;> first
    | exact Nat.le_refl _
    | exact parens_tail _ _
    | (rename_i ih; exact Nat.le_trans ih (parens_tail _ _))
theorem low_consumeRawCondition (env : Env) : Low n (consumeRawCondition env) := fun s _ => ⟨rfl, parens_rawLoop s.prev s.next⟩
theorem parens_ruleEnd (d : Nat) (p l : List Token) : parens (ruleEnd d p l).2 ≤ parens l := by
  fun_induction ruleEnd d p l <;> first
    | exact Nat.le_refl _
    | exact parens_tail _ _
    | (rename_i ih; exact Nat.le_trans ih (parens_tail _ _))
theorem low_untilRuleEnd : Low n untilRuleEnd := fun s _ => ⟨rfl, parens_ruleEnd 0 s.prev s.next⟩
theorem parens_customEnd (d : Nat) (p l : List Token) : parens (customEnd d p l).2 ≤ parens l := by
  fun_induction customEnd d p l <;> first
    | exact Nat.le_refl _
    | exact parens_tail _ _
    | (rename_i ih; exact Nat.le_trans ih (parens_tail _ _))
theorem low_skipCustom : Low n skipCustom := fun s _ => ⟨rfl, parens_customEnd 0 s.prev s.next⟩
theorem parens_declEnd (p l : List Token) : parens (declEnd p l).2 ≤ parens l := by
  fun_induction declEnd p l <;> first
    | exact Nat.le_refl _
    | exact parens_tail _ _
    | (rename_i ih; exact Nat.le_trans ih (parens_tail _ _))
theorem low_untilDeclEnd : Low n untilDeclEnd := fun s _ => ⟨rfl, parens_declEnd s.prev s.next⟩
theorem parens_skipEnd (d : Nat) (p l : List Token) : parens (skipEnd d p l).2 ≤ parens l := by
  fun_induction skipEnd d p l <;> first
    | exact Nat.le_refl _
    | exact parens_tail _ _
    | (rename_i ih; exact Nat.le_trans ih (parens_tail _ _))
theorem low_skipToDeclEnd : Low n skipToDeclEnd := fun s _ => ⟨rfl, parens_skipEnd 0 s.prev s.next⟩
theorem low_declarationBlock : Low n declarationBlock := by
  intro s _
  refine ⟨rfl, ?_⟩
  simp only
  have h0 : parens [Token.eof] = 0 := rfl
  split <;> simp only [parens_append, parens_pad, h0] <;> omega
theorem low_startsNested : Low n startsNested := by
  intro s _
  refine ⟨rfl, ?_⟩
  simp only
  have h0 : parens [Token.eof] = 0 := rfl
  split
  · simp only [parens_append, h0]; omega
  · exact Nat.le_refl _

end rules

/-- what one level down has to do -/
structure Rec.Low (n : Nat) (k : Rec) : Prop where
  block : ∀ m, CssParse.Low n (k.block m)
  args : CssParse.Low n k.args
  expr : CssParse.Low n k.expr
  pseudo : ∀ m, CssParse.Low n (k.pseudo m)
  cond : ∀ c, CssParse.Low n (k.cond c)

/-- closes the goals that follow from the rules -/
syntax "low" ("[" term,* "]")? : tactic
macro_rules
  | `(tactic| low) => `(tactic| low [])
  | `(tactic| low [$ts,*]) => `(tactic| repeat' (first
      | exact low_pure _
      | exact low_fail
      | with_reducible exact low_consume
      | with_reducible exact low_atEof
      | with_reducible exact low_current
      | with_reducible exact low_allowPush
      | with_reducible exact low_allowPop
      | with_reducible exact low_allowed
      | with_reducible exact low_skipWs
      | with_reducible exact backLow_reconsume'
      | with_reducible exact low_lookahead _
      | with_reducible exact low_lookaheadSc _
      | with_reducible exact Rec.Low.block ‹_› _
      | with_reducible exact Rec.Low.args ‹_›
      | with_reducible exact Rec.Low.expr ‹_›
      | with_reducible exact Rec.Low.pseudo ‹_› _
      $[| with_reducible exact $ts]*
      | with_reducible refine low_recurse ?_
      | with_reducible refine low_attempt ?_
      | with_reducible refine low_thenPop ?_
      | with_reducible refine low_consume_bind fun _ => ?_
      | with_reducible refine backLow_reconsume ?_
      | with_reducible refine low_bind ?_ (fun _ => ?_)
      | split
      | refine backLow_low ?_))

section flat
variable {n : Nat}

theorem low_expect (t : Token) : Low n (expect t) := by
  unfold expect
  low
theorem low_consumeFunction : Low n consumeFunction := by
  unfold consumeFunction
  low
theorem low_consumeAnyNumber : Low n consumeAnyNumber := by
  unfold consumeAnyNumber
  low
theorem low_consumeAnyDelim : Low n consumeAnyDelim := by
  unfold consumeAnyDelim
  low
theorem low_consumeAnyString : Low n consumeAnyString := by
  unfold consumeAnyString
  low
theorem low_consumeIdentCi (w : Str) : Low n (consumeIdentCi w) := by
  unfold consumeIdentCi
  low
theorem low_consumeIdent (w : Str) : Low n (consumeIdent w) := by
  unfold consumeIdent
  low
theorem low_consumeAnyIdent : Low n consumeAnyIdent := by
  unfold consumeAnyIdent
  low
theorem low_url : Low n url := by
  unfold url
  low [low_consumeFunction, low_expect _]
theorem low_operator : Low n operator := by
  unfold operator
  low
theorem low_attributeOperator : Low n attributeOperator := by
  unfold attributeOperator consumeAnyDelim
  rw [bind_assoc']
  refine low_consume_bind fun t => ?_
  cases t
  case delim c =>
    refine backLow_pure_bind ?_
    by_cases hc : c ∈ ['=', '~', '|', '^', '$', '*']
    · rw [if_pos hc]
      exact backLow_low (by low [low_expect _])
    · rw [if_neg hc]
      exact backLow_reconsume low_fail
  all_goals exact backLow_low low_fail_bind
theorem low_classSelector : Low n classSelector := by
  unfold classSelector
  low [low_expect _, low_consumeAnyIdent]
theorem low_nestingSelector : Low n nestingSelector := by
  unfold nestingSelector
  low [low_expect _]
theorem low_typeIdentOrAsterisk : Low n typeIdentOrAsterisk := by
  unfold typeIdentOrAsterisk
  low
theorem low_typeSelector : Low n typeSelector := by
  unfold typeSelector
  low [low_typeIdentOrAsterisk]
theorem low_attributeValue (t : Token) : Low n (attributeValue t) := by
  unfold attributeValue
  low [low_attributeOperator, low_consumeAnyString, low_consumeAnyIdent]
theorem low_attributeFlags : Low n attributeFlags := by
  unfold attributeFlags
  low [low_consumeAnyIdent]
theorem low_attributeSelector : Low n attributeSelector := by
  unfold attributeSelector
  low [low_attributeValue _, low_attributeFlags, low_expect _, low_consumeAnyIdent]
theorem low_idSelector : Low n idSelector := by
  unfold idSelector
  low [low_expect _]
theorem low_combinator : Low n combinator := by
  unfold combinator
  low
theorem low_expectChar (v : Str) (c : Char) (m : Nat) : Low n (expectChar v c m) := by
  unfold expectChar
  low
theorem low_checkInteger (v : Str) (m : Nat) : Low n (checkInteger v m) := by
  unfold checkInteger
  low
theorem low_anPlusB_b (env : Env) : Low n (anPlusB_b env) := by
  unfold anPlusB_b
  low [low_expect _, low_consumeAnyNumber]
theorem low_dimensionBlock (env : Env) (v u : Str) : Low n (dimensionBlock env v u) := by
  unfold dimensionBlock
  low [low_anPlusB_b _]
theorem low_negativeBlock (env : Env) (v : Str) : Low n (negativeBlock env v) := by
  unfold negativeBlock
  low [low_anPlusB_b _, low_expectChar _ _ _, low_checkInteger _ _, low_consumeAnyNumber]
theorem low_plusBlock (env : Env) (v : Str) : Low n (plusBlock env v) := by
  unfold plusBlock
  low [low_anPlusB_b _, low_expectChar _ _ _, low_checkInteger _ _, low_consumeAnyNumber]
theorem low_anPlusB (env : Env) : Low n (anPlusB env) := by
  unfold anPlusB
  refine low_bind (low_consume_bind fun t => ?_) fun _ => low_pure _
  split
  case h_3 =>
    refine backLow_look lookahead_prev (fun s => ⟨_, _, rfl, rfl, Nat.le_of_eq (parens_pad _ _)⟩) fun a => ?_
    low [low_plusBlock _ _, low_consumeAnyIdent]
  all_goals low [low_consumeAnyNumber, low_negativeBlock _ _, low_plusBlock _ _, low_dimensionBlock _ _ _]
theorem low_pseudoIdentSequence : Low n pseudoIdentSequence := by
  unfold pseudoIdentSequence
  exact low_bind (low_forever (fun _ => by low [low_consumeAnyIdent]) _) fun _ => low_pure _
theorem low_mediaComparison : Low n mediaComparison := by
  unfold mediaComparison
  low [low_consumeAnyDelim]
theorem low_layerQuery : Low n layerQuery := by
  unfold layerQuery
  exact low_bind low_consumeAnyIdent fun _ => low_bind (low_forever (fun _ => by low) _) fun _ => low_pure _
theorem low_layerPrelude : Low n layerPrelude := by
  unfold layerPrelude
  exact low_bind low_skipWs fun _ => low_bind (low_forever (fun _ => by low [low_layerQuery]) _) fun _ => low_pure _
theorem low_important : Low n important := by
  unfold important
  low [low_consumeIdent _]
end flat

section values
variable {env : Env} {k : Rec} {n : Nat} (hn : k.Low n)
include hn

theorem low_calcExpr : Low (n + 1) (calcExpr env k) := by
  unfold calcExpr
  refine low_bind (low_forever (fun e => ?_) _) (fun _ => by low)
  low [low_url]

theorem low_calcValue : Low (n + 1) (calcValue env k) := by
  unfold calcValue
  low [low_calcExpr hn, low_expect _, low_consumeFunction]

theorem low_function : Low (n + 1) (function k) := by
  unfold function
  low [low_consumeFunction, low_expect _]

theorem low_identValue (v : Str) : Low (n + 1) (identValue env k v) := by
  unfold identValue
  low [low_function hn, low_consumeIdent _, low_expect _, low_consumeIdentCi _]

theorem low_value : Low (n + 1) (value env k) := by
  unfold value
  low [low_calcValue hn, low_function hn, low_identValue hn _, low_operator, low_url]

theorem low_values : Low (n + 1) (values env k) := by
  unfold values
  exact low_forever (fun e => by low [low_value hn]) _

theorem low_pseudoElementSelector : Low (n + 1) (pseudoElementSelector env k) := by
  unfold pseudoElementSelector
  low [low_expect _, low_consumeAnyIdent, low_consumeFunction]

theorem low_pseudoSelector : Low (n + 1) (pseudoSelector env k) := by
  unfold pseudoSelector
  low [low_expect _, low_consumeAnyIdent, low_consumeFunction]

theorem backLow_selectorPart (t : Token) : BackLow (n + 1) t (selectorPart env k t) := by
  unfold selectorPart
  split
  case h_3 =>
    refine backLow_look lookahead_prev (fun s => ⟨_, _, rfl, rfl, Nat.le_of_eq (parens_pad _ _)⟩) fun a => ?_
    split
    · exact backLow_reconsume (by low [low_pseudoElementSelector hn])
    · exact backLow_reconsume (by low [low_pseudoSelector hn])
  all_goals low [low_attributeSelector, low_combinator, low_classSelector, low_typeSelector, low_idSelector, low_nestingSelector]

theorem low_selectorRound (x : SelState) : Low (n + 1) (selectorRound env k x) := by
  unfold selectorRound
  refine low_bind (by low) fun b => ?_
  split
  · low
  · refine low_consume_bind fun t => ?_
    split
    · low
    · exact backLow_bind (backLow_selectorPart hn t) fun o => by low

theorem low_selector : Low (n + 1) (selector env k) := by
  unfold selector
  exact low_bind (low_forever (low_selectorRound hn) _) fun _ => by low

theorem low_selectorList : Low (n + 1) (selectorList env k) := by
  unfold selectorList
  exact low_bind (low_forever (fun acc => by low [low_selector hn]) _) fun _ => by low

theorem low_pseudoNth : Low (n + 1) (pseudoNth env k) := by
  unfold pseudoNth
  low [low_anPlusB _, low_selectorList hn, low_consumeIdentCi _, low_consumeIdent _]

theorem low_pseudoInner (m : Str) : Low (n + 1) (pseudoInner env k m) := by
  unfold pseudoInner pseudoIdentList
  low [low_selectorList hn, low_pseudoNth hn, low_selector hn, low_pseudoIdentSequence, low_consumeAnyIdent]

theorem low_mediaTerm : Low (n + 1) (mediaTerm k) := by
  unfold mediaTerm
  low [low_function hn]

theorem low_mediaFeatureValue : Low (n + 1) (mediaFeatureValue k) := by
  unfold mediaFeatureValue
  low [low_function hn, low_mediaTerm hn]

omit hn in
/-- after the `(` -/
theorem low_paren {α : Type} {f : Unit → P α} (hf : Low (n + 1) (f ())) (s : PS) (hd : s.depth ≤ 64) (h : s.next.head? = some .lParen) :
    ((expect .lParen >>= f) s).LowErr (n + 1) s.depth (parens s.next) := by
  cases hs : s.next with
  | nil => rw [hs] at h; cases h
  | cons t r =>
    rw [hs] at h
    simp only [List.head?_cons, Option.some.injEq] at h
    subst h
    have e : expect .lParen s = .ok () { s with prev := .lParen :: s.prev, next := r } := by
      unfold expect
      rw [bind_ok (consume_cons hs)]
      rfl
    rw [bind_ok e]
    have := hf { s with prev := .lParen :: s.prev, next := r } hd
    cases e2 : f () { s with prev := .lParen :: s.prev, next := r } with
    | err s' => rw [e2] at this; exact ⟨this.1, by have := this.2; rw [parens_cons]; simp only [if_true] at this ⊢; omega⟩
    | ok a s' => rw [e2] at this; exact this.mono (parens_tail _ _)
    | deep => rw [e2] at this; exact Res.Low.mono (r := (.deep : Res α)) this (parens_tail _ _)
    | hang => trivial

theorem low_mediaFeatureOrRange (kind : Kind) (s : PS) (hd : s.depth ≤ 64) (h : s.next.head? = some .lParen) :
    (mediaFeatureOrRange k kind s).LowErr (n + 1) s.depth (parens s.next) := by
  have look : ∀ m s, s.next.head? = some .lParen → ∃ a s', lookaheadSc m s = .ok a s' ∧ s'.depth = s.depth ∧
      parens s'.next = parens s.next ∧ s'.next.head? = some .lParen := by
    intro m s hs
    have hp : (pad m s.next).head? = some .lParen := by
      cases e : s.next with
      | nil => rw [e] at hs; cases hs
      | cons t r => rw [e] at hs; exact hs
    unfold lookaheadSc
    split
    · exact ⟨_, _, rfl, rfl, parens_pad m s.next, hp⟩
    · refine ⟨_, _, rfl, rfl, ?_, ?_⟩
      · simp only [parens_append, parens_pad]; rfl
      · cases e : pad m s.next with
        | nil => rw [e] at hp; cases hp
        | cons t r => rw [e] at hp; exact hp
  obtain ⟨t1, s1, e1, d1, p1, h1⟩ := look 1 s h
  obtain ⟨t2, s2, e2, d2, p2, h2⟩ := look 2 s1 h1
  unfold mediaFeatureOrRange
  rw [bind_ok e1, bind_ok e2, ← d1, ← p1, ← d2, ← p2]
  rw [← d1, ← d2] at hd
  by_cases hb : (isIdent t1 && (decide (t2 = .colon) || decide (t2 = .rParen))) = true
  · rw [if_pos hb]
    unfold mediaFeature
    refine low_paren (n := n) ?_ s2 hd h2
    low [low_mediaFeatureValue hn, low_consumeAnyIdent, low_expect _]
  · rw [if_neg hb]
    unfold mediaRange
    have hw : skipWs s2 = .ok () s2 := by
      cases e : s2.next with
      | nil => rw [e] at h2; cases h2
      | cons t r =>
        rw [e] at h2
        simp only [List.head?_cons, Option.some.injEq] at h2
        subst h2
        unfold skipWs
        rw [e]
        simp only [wsLoop]
        rw [← e]
    rw [bind_ok hw]
    refine low_paren (n := n) ?_ s2 hd h2
    low [low_mediaTerm hn, low_mediaComparison, low_expect _]

theorem low_conditionRound (kind : Kind) (acc : List Node) : Low (n + 1) (conditionRound k kind acc) := by
  unfold conditionRound
  refine low_consume_bind fun t => ?_
  split
  case h_4 =>
    intro s hs hd
    obtain ⟨p, hq⟩ := prev_head hs
    have e : reconsume s = .ok () { s with prev := p, next := .lParen :: s.next } := by
      unfold reconsume
      rw [hq]
    rw [bind_ok e]
    split
    · exact ⟨rfl, Nat.le_refl _⟩
    · have h := low_mediaFeatureOrRange hn kind { s with prev := p, next := .lParen :: s.next } hd rfl
      rw [bind_run]
      unfold attempt
      cases e2 : mediaFeatureOrRange k kind { s with prev := p, next := .lParen :: s.next } with
      | ok a s' => rw [e2] at h; exact h
      | err s' =>
        rw [e2] at h
        obtain ⟨h1, h2⟩ := h
        simp only at h1 h2 ⊢
        have hl : Low n (expect .rParen >>= fun _ => k.cond kind >>= fun res => expect .lParen >>= fun _ =>
            (pure (.inr (some res, acc)) : P (List Node ⊕ (Option Node × List Node)))) := by
          low [low_expect _, hn.cond _]
        have := hl s' (by rw [h1]; exact hd)
        rw [h1] at this
        generalize ((expect .rParen >>= fun _ => k.cond kind >>= fun res => expect .lParen >>= fun _ =>
            (pure (.inr (some res, acc)) : P (List Node ⊕ (Option Node × List Node)))) s') = r at this
        cases r with
        | ok a s'' => exact ⟨this.1, by have := this.2; omega⟩
        | err s'' => exact ⟨this.1, by have := this.2; omega⟩
        | deep => simp only [Res.Low] at this ⊢; omega
        | hang => trivial
      | deep => rw [e2] at h; exact h
      | hang => trivial
  all_goals low

theorem low_condition (kind : Kind) : Low (n + 1) (condition k kind) := by
  unfold condition
  exact low_bind (low_forever (low_conditionRound hn kind) _) fun _ => by low

theorem low_mediaQuery : Low (n + 1) (mediaQuery env k) := by
  unfold mediaQuery
  refine low_bind (by low) fun _ => low_consume_bind fun t => ?_
  refine backLow_look lookaheadSc_prev (lookaheadSc_at 0) fun nt => ?_
  low [low_condition hn _, low_consumeAnyIdent, low_consumeIdent _]

theorem low_mediaQueryList : Low (n + 1) (mediaQueryList env k) := by
  unfold mediaQueryList
  exact low_bind (low_forever (fun acc => by low [low_mediaQuery hn]) _) fun _ => by low

theorem low_containerPrelude : Low (n + 1) (containerPrelude k) := by
  unfold containerPrelude
  low [low_condition hn _]

theorem low_customMediaPrelude : Low (n + 1) (customMediaPrelude env k) := by
  unfold customMediaPrelude
  low [low_mediaQueryList hn, low_consumeAnyIdent]

theorem low_customSelectorPrelude : Low (n + 1) (customSelectorPrelude env k) := by
  unfold customSelectorPrelude
  low [low_selectorList hn, low_consumeAnyIdent, low_expect _]

theorem low_importPrelude : Low (n + 1) (importPrelude k) := by
  unfold importPrelude
  low [low_function hn, low_url, low_consumeAnyString, low_consumeAnyIdent]

theorem low_nestPrelude : Low (n + 1) (nestPrelude env k) := by
  unfold nestPrelude
  exact low_bind (low_forever (fun acc => by low [low_selector hn]) _) fun _ => by low

theorem low_scopePrelude : Low (n + 1) (scopePrelude env k) := by
  unfold scopePrelude
  low [low_selectorList hn, low_expect _, low_consumeIdent _, low_consumeIdentCi _]

omit hn in
theorem low_ite {α : Type} {c : Prop} [Decidable c] {a b : P α} (ha : Low n a) (hb : Low n b) : Low n (if c then a else b) := by
  split <;> assumption

theorem low_preludeNode (m : Str) : Low (n + 1) (preludeNode env k m) := by
  unfold preludeNode supportsPrelude sequencePrelude
  dsimp only
  iterate 11 (refine low_ite ?_ ?_; rotate_left)
  all_goals low [low_containerPrelude hn, low_customMediaPrelude hn, low_customSelectorPrelude hn, low_importPrelude hn,
    low_layerPrelude, low_mediaQueryList hn, low_nestPrelude hn, low_scopePrelude hn, low_consumeRawCondition _, low_values hn]

theorem low_atPrelude (m : Str) : Low (n + 1) (atPrelude env k m) := by
  unfold atPrelude
  low [low_preludeNode hn _]

theorem low_atBlock (m : Str) (b : Bool) : Low (n + 1) (atBlock env k m b) := by
  unfold atBlock
  refine low_consume_bind fun t => ?_
  split
  · low
  · refine backLow_low ?_
    dsimp only
    low [low_declarationBlock, low_expect _]

theorem low_atRuleInternal (b : Bool) : Low (n + 1) (atRuleInternal env k b) := by
  unfold atRuleInternal
  low [low_atPrelude hn _, low_atBlock hn _ _]

theorem low_atRule (b : Bool) : Low (n + 1) (atRule env k b) := by
  unfold atRule
  low [low_atRuleInternal hn _, low_untilRuleEnd]

theorem low_ruleInternal : Low (n + 1) (ruleInternal env k) := by
  unfold ruleInternal
  low [low_selectorList hn, low_expect _]

theorem low_rule : Low (n + 1) (rule env k) := by
  unfold rule
  low [low_ruleInternal hn, low_untilRuleEnd]

theorem low_declarationInternal : Low (n + 1) (declarationInternal env k) := by
  unfold declarationInternal
  low [low_values hn, low_important, low_skipCustom, low_consumeAnyIdent, low_expect _]

theorem low_declaration : Low (n + 1) (declaration env k) := by
  unfold declaration
  low [low_declarationInternal hn, low_untilDeclEnd]

theorem backLow_blockItem (mode : Mode) (c : List Node) (semi : Bool) (t : Token) :
    BackLow (n + 1) t (blockItem env k mode c semi) := by
  unfold blockItem
  low [low_rule hn, low_declaration hn, low_skipToDeclEnd, low_startsNested]

theorem low_blockRound (mode : Mode) (x : List Node × Bool) : Low (n + 1) (blockRound env k mode x) := by
  unfold blockRound
  refine low_bind (by low) fun b => ?_
  split
  · low
  · refine low_consume_bind fun t => ?_
    split
    case h_5 => exact backLow_bind (backLow_blockItem hn mode _ _ t) fun _ => by low
    all_goals low [low_atRule hn _]

theorem low_blockInner (mode : Mode) : Low (n + 1) (blockInner env k mode) := by
  unfold blockInner
  exact low_bind (low_forever (low_blockRound hn mode) _) fun _ => by low

theorem low_sheetRound (acc : List Node) : Low (n + 1) (sheetRound env k acc) := by
  unfold sheetRound
  low [low_atRule hn _, low_rule hn]

theorem low_sheet : Low (n + 1) (sheet env k) := by
  unfold sheet
  exact low_bind (low_forever (low_sheetRound hn) _) fun _ => by low

theorem low_level : (level env k).Low (n + 1) where
  block := low_blockInner hn
  args := low_values hn
  expr := low_calcExpr hn
  pseudo := low_pseudoInner hn
  cond := low_condition hn

end values

theorem low_at (env : Env) : ∀ d, (Rec.at env d).Low d
  | 0 => ⟨fun _ _ _ => Nat.zero_le _, fun _ _ => Nat.zero_le _, fun _ _ => Nat.zero_le _, fun _ _ _ => Nat.zero_le _,
      fun _ _ _ => Nat.zero_le _⟩
  | d + 1 => low_level (low_at env d)

theorem parseTree_low (env : Env) (d : Nat) (ts : List Token) (h : 64 + ts.count .lParen ≤ d) : parseTree env d ts ≠ .deep := by
  intro e
  have := low_sheet (env := env) (low_at env d) (PS.new ts) (Nat.zero_le _)
  unfold parseTree at e
  rw [e] at this
  have h2 : parens (PS.new ts).next = ts.count .lParen := rfl
  have h3 : (PS.new ts).depth = 0 := rfl
  simp only [Res.Low, h2, h3] at this
  omega

end Verif.CssParse
