import Verif.CssParse.Lemmas

/-! # C109: every function of the parser makes no more to read -/

namespace Verif.CssParse

open Verif.CssTok (Token)

theorem back_look {α β : Type} {t : Token} (ht : t ≠ .eof) {m : P α} {f : α → P β} (hm : Good m)
    (hp : ∀ s a s', m s = .ok a s' → s'.prev = s.prev) (hf : ∀ a, Back t (f a)) : Back t (m >>= f) := by
  intro s hs
  have h := hm s
  rw [bind_run]
  cases e : m s with
  | ok a s' =>
    rw [e] at h
    have hq : phi (t :: s'.next) ≤ phi (t :: s.next) := by
      rw [phi_live ht, phi_live ht]
      have := Rem.le h
      omega
    refine (hf a s' (by rw [hp _ _ _ e]; exact hs)).mono fun s'' h'' => ?_
    exact Rem.trans (.inr ⟨hq, fun _ _ h => h⟩) h''
  | err s' => rw [e] at h; exact .tail t (Rem.le h)
  | deep => trivial
  | hang => rw [e] at h; exact h

theorem lookahead_prev {k : Nat} (s : PS) (a : Token) (s' : PS) (h : lookahead k s = .ok a s') : s'.prev = s.prev := by
  cases h
  rfl

theorem lookaheadSc_prev {k : Nat} (s : PS) (a : Token) (s' : PS) (h : lookaheadSc k s = .ok a s') : s'.prev = s.prev := by
  unfold lookaheadSc at h
  split at h <;> cases h <;> rfl

/-- what one level down has to do -/
structure Rec.Good (k : Rec) : Prop where
  block : ∀ m, CssParse.Good (k.block m)
  args : CssParse.Good k.args
  expr : CssParse.Good k.expr
  pseudo : ∀ n, CssParse.Good (k.pseudo n)
  cond : ∀ c, CssParse.Good (k.cond c)

/-- closes the goals that follow from the rules -/
syntax "good" ("[" term,* "]")? : tactic
macro_rules
  | `(tactic| good) => `(tactic| good [])
  | `(tactic| good [$ts,*]) => `(tactic| repeat' (first
      | exact good_pure _
      | exact good_fail
      | exact good_consume
      | exact good_atEof
      | exact good_current
      | exact good_allowPush
      | exact good_allowPop
      | exact good_allowed
      | exact back_reconsume'
      | exact good_lookahead (by omega)
      | exact good_lookaheadSc (by omega)
      | exact Rec.Good.block ‹_› _
      | exact Rec.Good.args ‹_›
      | exact Rec.Good.expr ‹_›
      | exact Rec.Good.pseudo ‹_› _
      | exact Rec.Good.cond ‹_› _
      $[| exact $ts]*
      | with_reducible refine good_recurse ?_
      | with_reducible refine good_attempt ?_
      | with_reducible refine good_thenPop ?_
      | with_reducible refine good_consume_bind fun _ => ?_
      | with_reducible refine back_reconsume ?_
      | with_reducible refine good_bind ?_ (fun _ => ?_)
      | split
      | refine back_good ?_))

theorem good_expect (t : Token) : Good (expect t) := by unfold expect; good
theorem good_consumeFunction : Good consumeFunction := by unfold consumeFunction; good
theorem good_consumeAnyNumber : Good consumeAnyNumber := by unfold consumeAnyNumber; good
theorem good_consumeAnyDelim : Good consumeAnyDelim := by unfold consumeAnyDelim; good
theorem good_consumeAnyString : Good consumeAnyString := by unfold consumeAnyString; good
theorem good_consumeIdentCi (w : Str) : Good (consumeIdentCi w) := by unfold consumeIdentCi; good
theorem good_consumeIdent (w : Str) : Good (consumeIdent w) := by unfold consumeIdent; good
theorem good_consumeAnyIdent : Good consumeAnyIdent := by unfold consumeAnyIdent; good

theorem rem_wsLoop (p l : List Token) : Rem l (wsLoop p l).2 := by
  fun_induction wsLoop p l with
  | case1 p r ih => exact .tail _ ih.le
  | case2 p => exact .inr ⟨Nat.le_of_eq rfl, by simp⟩
  | case3 p t r _ => exact .refl _

theorem good_skipWs : Good skipWs := fun s => rem_wsLoop s.prev s.next

theorem rem_rawLoop (p l : List Token) : Rem l (rawLoop p l).2 := by
  fun_induction rawLoop p l with
  | case1 p => exact .refl _
  | case2 p r => exact .refl _
  | case3 p t r _ ih => exact .tail _ ih.le

theorem good_consumeRawCondition (env : Env) : Good (consumeRawCondition env) := fun s => rem_rawLoop s.prev s.next

theorem rem_ruleEnd (d : Nat) (p l : List Token) : Rem l (ruleEnd d p l).2 := by
  fun_induction ruleEnd d p l <;> first
    | exact .refl _
    | exact .tail _ (Nat.le_refl _)
    | (rename_i ih; exact .tail _ ih.le)

theorem rem_customEnd (d : Nat) (p l : List Token) : Rem l (customEnd d p l).2 := by
  fun_induction customEnd d p l <;> first
    | exact .refl _
    | exact .inr ⟨Nat.le_of_eq rfl, by simp⟩
    | exact .tail _ (Nat.le_refl _)
    | (rename_i ih; exact .tail _ ih.le)

theorem rem_declEnd (p l : List Token) : Rem l (declEnd p l).2 := by
  fun_induction declEnd p l <;> first
    | exact .refl _
    | exact .tail _ (Nat.le_refl _)
    | (rename_i ih; exact .tail _ ih.le)

theorem rem_skipEnd (d : Nat) (p l : List Token) : Rem l (skipEnd d p l).2 := by
  fun_induction skipEnd d p l <;> first
    | exact .refl _
    | exact .inr ⟨Nat.le_of_eq rfl, by simp⟩
    | exact .tail _ (Nat.le_refl _)
    | (rename_i ih; exact .tail _ ih.le)

theorem good_untilRuleEnd : Good untilRuleEnd := fun s => rem_ruleEnd 0 s.prev s.next
theorem good_skipCustom : Good skipCustom := fun s => rem_customEnd 0 s.prev s.next
theorem good_untilDeclEnd : Good untilDeclEnd := fun s => rem_declEnd s.prev s.next
theorem good_skipToDeclEnd : Good skipToDeclEnd := fun s => rem_skipEnd 0 s.prev s.next

theorem scanBlock_live (l : List Token) (h : scanBlock l = true) : live l = l.length := by
  fun_induction scanBlock l <;> (simp_all [live_cons]; try rfl)

theorem scanNested_live (d : Nat) (l : List Token) (h : (scanNested d l).2 = true) : live l = l.length := by
  fun_induction scanNested d l <;> (simp_all [live_cons]; try rfl)

theorem good_declarationBlock : Good declarationBlock := by
  intro s
  show Rem s.next _
  simp only
  split
  · rename_i h
    have := phi_scan (by omega : (1 : Nat) ≤ 2) (scanBlock_live _ h)
    unfold pad at this ⊢
    rw [List.append_assoc] at this ⊢
    exact .append _ this
  · exact .append _ (Nat.le_of_eq (phi_pad (by omega) s.next))

theorem good_startsNested : Good startsNested := by
  intro s
  show Rem s.next _
  simp only
  split
  · rename_i h
    have := scanNested_live _ _ h
    refine .append _ ?_
    have h6 : live [Token.eof] = 0 := rfl
    simp only [phi, List.length_append, live_append, List.length_singleton]
    omega
  · exact .refl _


/-- closes goals that a step never goes on -/
macro "never" : tactic => `(tactic| repeat' (first
  | exact never_pure (not_goes _)
  | exact never_pure (by simp [Goes])
  | exact never_pure (by simp)
  | exact never_fail
  | refine never_bind fun _ => ?_
  | split))

theorem strict_expect {t : Token} (ht : t ≠ .eof) : Strict (fun _ => True) (expect t) := by
  unfold expect
  refine strict_consume_bind (fun u hu => kept_good hu (by good)) ?_
  rw [if_neg (fun h => ht h.symm)]
  never

theorem strict_consumeFunction : Strict (fun _ => True) consumeFunction := by
  unfold consumeFunction
  exact strict_consume_bind (fun u hu => kept_good hu (by good)) (by never)

theorem strict_consumeAnyNumber : Strict (fun _ => True) consumeAnyNumber := by
  unfold consumeAnyNumber
  exact strict_consume_bind (fun u hu => kept_good hu (by good)) (by never)

theorem strict_consumeAnyDelim : Strict (fun _ => True) consumeAnyDelim := by
  unfold consumeAnyDelim
  exact strict_consume_bind (fun u hu => kept_good hu (by good)) (by never)

theorem strict_consumeAnyIdent : Strict (fun _ => True) consumeAnyIdent := by
  unfold consumeAnyIdent
  exact strict_consume_bind (fun u hu => kept_good hu (by good)) (by never)

/-- a step that does not end with such an `a` when it begins at the end of the text -/
def AtEnd {α : Type} (p : α → Prop) (f : P α) : Prop := ∀ s r, s.next = .eof :: r → ∀ a s', f s = .ok a s' → ¬ p a

theorem strict_consume_bind' {β : Type} {p : β → Prop} {f : Token → P β} (hf : ∀ t, t ≠ .eof → Kept p t (f t)) {g : P β}
    (hg : f .eof = reconsume >>= fun _ => g) (he : AtEnd p g) : Strict p (consume >>= f) := by
  intro s a s' h hp
  cases hn : s.next with
  | nil =>
    rw [bind_ok (consume_nil hn), hg] at h
    exact absurd hp (he _ _ rfl _ _ h)
  | cons t r =>
    rw [bind_ok (consume_cons hn)] at h
    by_cases ht : t = .eof
    · subst ht
      rw [hg] at h
      exact absurd hp (he _ _ rfl _ _ h)
    · exact hf t ht _ rfl _ _ h hp

theorem atEnd_bind {α β : Type} {p : β → Prop} {q : α → Prop} {m : P α} {f : α → P β} (hm : AtEnd q m)
    (hf : ∀ a, ¬ q a → Never p (f a)) : AtEnd p (m >>= f) := by
  intro s r hn b s' h
  obtain ⟨a, s1, e1, e2⟩ := bind_inv h
  exact hf a (hm s r hn _ _ e1) _ _ _ e2

section values
variable {env : Env} {k : Rec} (hk : k.Good)
include hk

theorem good_calcExpr : Good (calcExpr env k) := by
  unfold calcExpr
  refine good_bind (good_loop (fun e => ?_) (fun e => ?_) _) (fun _ => good_pure _)
  · good
  · exact strict_consume_bind (fun u hu => kept_good hu (by good)) (by never)

theorem good_calcValue : Good (calcValue env k) := by unfold calcValue; good [good_calcExpr hk]

omit hk in
theorem good_url : Good url := by unfold url; good [good_consumeFunction, good_expect _]

omit hk in
theorem good_operator : Good operator := by unfold operator; good

omit hk in
theorem strict_operator : Strict (fun _ => True) operator := by
  unfold operator
  exact strict_consume_bind (fun u hu => kept_good hu (by good)) (by never)

omit hk in
theorem strict_url : Strict (fun _ => True) url := by
  unfold url
  exact strict_left strict_consumeFunction good_consumeFunction (fun _ => by good [good_expect _]) (fun _ h => absurd trivial h)

theorem good_function : Good (function k) := by unfold function; good [good_consumeFunction, good_expect _]

theorem strict_function : Strict (fun _ => True) (function k) := by
  unfold function
  exact strict_left strict_consumeFunction good_consumeFunction (fun _ => by good [good_expect _]) (fun _ h => absurd trivial h)

theorem good_identValue (v : Str) : Good (identValue env k v) := by
  unfold identValue; good [good_function hk, good_expect _, good_consumeIdentCi _]

theorem good_value : Good (value env k) := by
  unfold value; good [good_calcValue hk, good_url, good_function hk, good_identValue hk _, good_operator]

theorem strict_value : Strict (fun o => o.isSome = true) (value env k) := by
  unfold value
  refine strict_consume_bind (fun u hu => ?_) ?_
  · split
    case h_8 =>
      split
      · exact kept_good hu (by good [good_calcValue hk])
      · split
        · exact kept_reconsume (strict_left strict_url good_url (fun _ => by good) (fun _ h => absurd trivial h))
        · exact kept_reconsume (strict_left (strict_function hk) (good_function hk) (fun _ => by good) (fun _ h => absurd trivial h))
    case h_12 =>
      split
      · exact kept_reconsume (strict_left strict_operator good_operator (fun _ => by good) (fun _ h => absurd trivial h))
      · split
        · exact kept_never (by never)
        · exact kept_never (by never)
    case h_13 => exact kept_never (by never)
    all_goals exact kept_good hu (by good [good_identValue hk _])
  · never

omit hk in
theorem atEnd_value : AtEnd (fun o => o.isSome = true) (value env k) := by
  intro s r hn a s' h
  unfold value at h
  rw [bind_ok (consume_cons hn)] at h
  cases h
  simp

theorem good_values : Good (values env k) := by
  unfold values
  refine good_loop (fun e => ?_) (fun e => ?_) _
  · good [good_value hk]
  · refine strict_right good_atEof fun b => ?_
    split
    · exact strict_never (by never)
    · refine strict_consume_bind' (fun u hu => ?_) (g := do
        match ← value env k with
        | none => return .inr e
        | some n => return .inl (e ++ [n])) ?_ ?_
      rotate_left
      · rfl
      · refine atEnd_bind atEnd_value fun o ho => ?_
        cases o with
        | none => never
        | some n => exact absurd rfl ho
      · split
        · refine kept_reconsume ?_
          refine strict_left (strict_value hk) (good_value hk) (fun o => by good) (fun o ho => ?_)
          cases o with
          | none => exact strict_never (by never)
          | some n => exact absurd rfl ho
        · exact kept_good hu (by good [good_value hk])
end values

/-! ## Selectors -/

theorem bind_assoc' {α β γ : Type} (m : P α) (f : α → P β) (g : β → P γ) : ((m >>= f) >>= g) = m >>= fun a => f a >>= g := by
  funext s
  rw [bind_run, bind_run, bind_run]
  cases m s <;> rfl

theorem back_pure_bind {α β : Type} {t : Token} {a : α} {f : α → P β} (h : Back t (f a)) : Back t (pure a >>= f) := h

theorem good_fail_bind {α β : Type} (f : α → P β) : Good (fail >>= f) := fun _ => .refl _

theorem good_attributeOperator : Good attributeOperator := by
  unfold attributeOperator consumeAnyDelim
  rw [bind_assoc']
  refine good_consume_bind fun t => ?_
  cases t
  case delim c =>
    refine back_pure_bind ?_
    by_cases hc : c ∈ ['=', '~', '|', '^', '$', '*']
    · rw [if_pos hc]
      exact back_good (by good [good_expect _])
    · rw [if_neg hc]
      exact back_reconsume good_fail
  all_goals exact back_good (good_fail_bind _)

theorem good_classSelector : Good classSelector := by unfold classSelector; good [good_expect _, good_consumeAnyIdent]
theorem good_nestingSelector : Good nestingSelector := by unfold nestingSelector; good [good_expect _]
theorem good_typeIdentOrAsterisk : Good typeIdentOrAsterisk := by unfold typeIdentOrAsterisk; good
theorem good_typeSelector : Good typeSelector := by unfold typeSelector; good [good_typeIdentOrAsterisk]
theorem good_attributeValue (t : Token) : Good (attributeValue t) := by
  unfold attributeValue; good [good_attributeOperator, good_skipWs, good_consumeAnyString, good_consumeAnyIdent]
theorem good_attributeFlags : Good attributeFlags := by
  unfold attributeFlags; good [good_skipWs, good_consumeAnyIdent]
theorem good_attributeSelector : Good attributeSelector := by
  unfold attributeSelector; good [good_attributeValue _, good_attributeFlags, good_expect _, good_skipWs, good_consumeAnyIdent]
theorem good_idSelector : Good idSelector := by unfold idSelector; good [good_expect _]

theorem strict_classSelector : Strict (fun _ => True) classSelector := by
  unfold classSelector
  exact strict_left (strict_expect (by decide)) (good_expect _) (fun _ => by good [good_consumeAnyIdent]) (fun _ h => absurd trivial h)
theorem strict_nestingSelector : Strict (fun _ => True) nestingSelector := by
  unfold nestingSelector
  exact strict_left (strict_expect (by decide)) (good_expect _) (fun _ => by good) (fun _ h => absurd trivial h)
theorem strict_idSelector : Strict (fun _ => True) idSelector := by
  unfold idSelector
  exact strict_left (strict_expect (by decide)) (good_expect _) (fun _ => by good) (fun _ h => absurd trivial h)
theorem strict_attributeSelector : Strict (fun _ => True) attributeSelector := by
  unfold attributeSelector
  exact strict_left (strict_expect (by decide)) (good_expect _) (fun _ => by
    good [good_attributeValue _, good_attributeFlags, good_expect _, good_skipWs, good_consumeAnyIdent]) (fun _ h => absurd trivial h)

theorem strict_typeIdentOrAsterisk : Strict (fun _ => True) typeIdentOrAsterisk := by
  have key : ∀ (s : PS) (v : Str) (t : Token), t ≠ .eof → (pad 0 s.next)[0]?.getD .eof = t → ∀ a s',
      (consume >>= fun _ => pure v : P Str) { s with next := pad 0 s.next } = .ok a s' → phi s'.next < phi s.next := by
    intro s v t ht hp a s' h
    cases hn : s.next with
    | nil =>
      rw [hn] at hp
      exact absurd hp.symm ht
    | cons u r =>
      have e : pad 0 (u :: r) = u :: r := by simp [pad]
      rw [hn, e] at h hp
      simp only [List.getElem?_cons_zero, Option.getD_some] at hp
      subst hp
      cases h
      rw [phi_live ht]
      exact Nat.lt_succ_self _
  intro s a s' h _
  unfold typeIdentOrAsterisk at h
  obtain ⟨t, s1, e1, e2⟩ := bind_inv h
  have h1 : (pad 0 s.next)[0]?.getD .eof = t ∧ s1 = { s with next := pad 0 s.next } := by cases e1; exact ⟨rfl, rfl⟩
  obtain ⟨h1, rfl⟩ := h1
  split at e2
  · exact key s _ _ (by simp) h1 _ _ e2
  · exact key s _ _ (by simp) h1 _ _ e2
  · simp [fail] at e2

theorem strict_typeSelector : Strict (fun _ => True) typeSelector := by
  unfold typeSelector
  refine strict_left (q := fun _ => True) ?_ (by good [good_typeIdentOrAsterisk]) (fun _ => by good) (fun _ h => absurd trivial h)
  refine strict_right good_current fun t => ?_
  split
  · exact strict_right good_consume fun _ => strict_left strict_typeIdentOrAsterisk good_typeIdentOrAsterisk (fun _ => by good)
      (fun _ h => absurd trivial h)
  · exact strict_left strict_typeIdentOrAsterisk good_typeIdentOrAsterisk (fun _ => by good [good_typeIdentOrAsterisk])
      (fun _ h => absurd trivial h)

theorem good_combinator : Good combinator := by unfold combinator; good [good_skipWs]

theorem strict_combinator : Strict (fun _ => True) combinator := by
  unfold combinator
  refine strict_left (q := fun _ => True) ?_ (by good) (fun _ => by good [good_skipWs]) (fun _ h => absurd trivial h)
  exact strict_consume_bind (fun u hu => kept_good hu (by good)) (by never)

theorem kept_look {α β : Type} {p : β → Prop} {t : Token} (ht : t ≠ .eof) {m : P α} {f : α → P β} (hm : Good m)
    (hp : ∀ s a s', m s = .ok a s' → s'.prev = s.prev) (hf : ∀ a, Kept p t (f a)) : Kept p t (m >>= f) := by
  intro s hs b s' h hb
  obtain ⟨a, s1, e1, e2⟩ := bind_inv h
  have h1 := hf a s1 (by rw [hp _ _ _ e1]; exact hs) _ _ e2 hb
  have h2 := hm s
  rw [e1] at h2
  have := Rem.le h2
  rw [phi_live ht] at h1 ⊢
  omega

theorem back_bind {α β : Type} {t : Token} {m : P α} {f : α → P β} (hm : Back t m) (hf : ∀ a, Good (f a)) : Back t (m >>= f) :=
  fun s hs => bind_all (hm s hs) (fun _ h => h) fun a s' h => (hf a s').mono fun _ h' => h.trans h'

section selectors
variable {env : Env} {k : Rec} (hk : k.Good)
include hk

theorem good_pseudoElementSelector : Good (pseudoElementSelector env k) := by
  unfold pseudoElementSelector; good [good_expect _]

theorem good_pseudoSelector : Good (pseudoSelector env k) := by
  unfold pseudoSelector; good [good_expect _]

theorem strict_pseudoElementSelector : Strict (fun _ => True) (pseudoElementSelector env k) := by
  unfold pseudoElementSelector
  exact strict_left (strict_expect (by decide)) (good_expect _) (fun _ => by good [good_expect _]) (fun _ h => absurd trivial h)

theorem strict_pseudoSelector : Strict (fun _ => True) (pseudoSelector env k) := by
  unfold pseudoSelector
  exact strict_left (strict_expect (by decide)) (good_expect _) (fun _ => by good [good_expect _]) (fun _ h => absurd trivial h)

theorem back_selectorPart (t : Token) : Back t (selectorPart env k t) := by
  unfold selectorPart
  by_cases ht : t = .eof
  · subst ht
    good
  · split
    case h_3 =>
      refine back_look ht (good_lookahead (by omega)) lookahead_prev fun a => ?_
      split
      · exact back_reconsume (by good [good_pseudoElementSelector hk])
      · exact back_reconsume (by good [good_pseudoSelector hk])
    all_goals good [good_attributeSelector, good_combinator, good_classSelector, good_typeSelector, good_idSelector,
      good_nestingSelector]

theorem kept_selectorPart (t : Token) (ht : t ≠ .eof) : Kept (fun o => o.isSome = true) t (selectorPart env k t) := by
  have lift : ∀ {m : P Node} (x y : Bool), Strict (fun _ => True) m → Good m →
      Kept (fun o => o.isSome = true) t (reconsume >>= fun _ => m >>= fun n => pure (some (n, x, y))) := fun _ _ hs hg =>
    kept_reconsume (strict_left hs hg (fun _ => by good) (fun _ h => absurd trivial h))
  unfold selectorPart
  split
  case h_1 => exact lift _ _ strict_attributeSelector good_attributeSelector
  case h_3 =>
    refine kept_look ht (good_lookahead (by omega)) lookahead_prev fun a => ?_
    split
    · exact lift _ _ (strict_pseudoElementSelector hk) (good_pseudoElementSelector hk)
    · exact lift _ _ (strict_pseudoSelector hk) (good_pseudoSelector hk)
  case h_8 =>
    split
    · exact lift _ _ strict_combinator good_combinator
    split
    · exact lift _ _ strict_classSelector good_classSelector
    split
    · exact lift _ _ strict_typeSelector good_typeSelector
    split
    · exact lift _ _ strict_idSelector good_idSelector
    split
    · exact lift _ _ strict_nestingSelector good_nestingSelector
    · exact kept_never (by never)
  case h_10 => exact kept_never (by never)
  all_goals exact kept_good ht (by good)

theorem good_selectorRound (x : SelState) : Good (selectorRound env k x) := by
  unfold selectorRound
  refine good_bind good_atEof fun b => ?_
  split
  · good
  · refine good_consume_bind fun t => ?_
    split
    · good
    · exact back_bind (back_selectorPart hk t) fun o => by good

theorem strict_selectorRound (x : SelState) : Strict Goes (selectorRound env k x) := by
  unfold selectorRound
  refine strict_right good_atEof fun b => ?_
  split
  · exact strict_never (by never)
  · refine strict_consume_bind (fun t ht => ?_) (by
      rw [if_neg (by simp)]
      unfold selectorPart
      simp only
      rw [bind_assoc']
      exact never_bind fun _ => never_pure (not_goes _))
    split
    · exact kept_good ht (by good)
    · intro s hs r s' h hr
      obtain ⟨o, s1, e1, e2⟩ := bind_inv h
      cases o with
      | none => cases e2; exact absurd hr (not_goes _)
      | some y =>
        have h1 := kept_selectorPart hk t ht s hs _ _ e1 rfl
        have e3 : s' = s1 := by
          obtain ⟨n, f, k⟩ := y
          simp only at e2
          split at e2 <;> cases e2 <;> rfl
        rw [e3]
        exact h1

theorem good_selector : Good (selector env k) := by
  unfold selector
  exact good_bind (good_loop (good_selectorRound hk) (strict_selectorRound hk) _) fun _ => good_pure _

end selectors

end Verif.CssParse
