import Verif.HtmlTok.Sim3

/-!
# The engine's tokenizer follows the standard's: tags and their attributes
-/

namespace Verif.HtmlTok

open Standard (Machine Tag Doctype Step act)
open Relation (ReflTransGen)
open CharRef (TableOk)

variable (env : Env) (p : Parser)

theorem Named.pend {t : Tok} {m : Machine} (h : Named t m) : Pend t m := by
  obtain ⟨pre, h1, h2, h3⟩ := h
  exact ⟨pre, h1, .inr ⟨h2, h3⟩⟩

/-- storing the attribute in the making keeps the first ones of what was written -/
theorem Pend.stored {t : Tok} {m : Machine} (h : Pend t m) : t.storeAttr.attrs = Standard.firsts m.tag.attrs := by
  obtain ⟨pre, h1, ⟨h2, h3, h4⟩ | ⟨h2, h3⟩⟩ := h
  · simp [Tok.storeAttr, h2, h4, h1]
  · rw [h3, firsts_concat, h1]
    simp only [Tok.storeAttr]
    by_cases hm : t.attrName ∈ t.attrs.map (·.1)
    · rw [if_pos hm, if_neg (fun h => h.2 hm)]
    · rw [if_neg hm, if_pos ⟨h2, hm⟩]

theorem firsts_nil_iff (l : List (Str × Str)) : Standard.firsts l = [] ↔ l = [] := by
  cases l <;> simp [Standard.firsts]

/-- the end of a tag -/
theorem rel_finish {t : Tok} {m : Machine} {got : List Token} (ho : m.out = got) (hq : t.queue = []) (hs : t.state = .data) (hi : m.input = t.rest)
    (hc : m.chars = t.consumed) (hg : m.stopped = false) (hu : m.endTagWithAttributes = false) (hp : Plain env t.rest)
    (hcur : t.cur = some (if m.tag.isEnd then .endTag m.tag.name else .startTag m.tag.name m.tag.selfClosing []))
    (hpend : Pend t m) : Rel env p got t.finishTag (m.emitTag p) := by
  subst ho
  have hst := hpend.stored
  obtain ⟨rest', s, consumed', an, av, as, cur, tmp, queue, ls⟩ := t
  obtain ⟨ms, ret, rest, ⟨e, n, sc, attrs⟩, com, doc, buf, mls, consumed, out, fl, stp⟩ := m
  simp only at hq hs hi hc hg hu hp hcur
  subst hq hs hi hc hg hu hcur
  simp only [Tok.storeAttr] at hst
  simp only [Tok.finishTag, Tok.storeAttr, hst, Tok.addStored, Machine.emitTag, firsts_nil_iff]
  cases e with
  | true =>
    by_cases ha : attrs = []
    · subst ha
      simp only [if_true, Tok.emitCur]
      exact rel_emit (s := consumed) (k := .endTag n) rfl rfl rfl rfl rfl rfl rfl rfl rfl hp rfl rfl rfl
    · simp only [if_neg ha, if_true, Tok.emitCur]
      refine .flagged (by simp [ha]) ?_
      simp only [Machine.emit, Machine.switch, Tok.emit, List.nil_append]
      exact (congrArg Prod.fst (settle_emit p out consumed (.endTag n) .data)).symm
  | false =>
    by_cases ha : attrs = []
    · subst ha
      simp only [if_true, Bool.false_eq_true, if_false, Tok.emitCur]
      exact rel_start (s := consumed) rfl rfl rfl rfl rfl rfl rfl rfl hp rfl rfl rfl rfl
    · simp only [if_neg ha, Bool.false_eq_true, if_false, Tok.emitCur, List.nil_append]
      exact rel_start (s := consumed) rfl rfl rfl rfl rfl rfl rfl rfl hp rfl rfl rfl rfl

theorem sim_tagName : Sim env p .tagName := by
  sim_start
  obtain ⟨⟨rfl, rfl, rfl⟩, ⟨hcur, hsc⟩, ha⟩ := hr
  obtain ⟨e, n, sc, attrs⟩ := tag
  simp only at hcur hsc ha
  subst hcur hsc ha
  cases rest with
  | nil => one_step; fin_ending
  | cons c r =>
    one_step
    cases e with
    | true =>
      simp only [tagToken, Tok.addName, Machine.appendName, if_true, Tok.emitCur, Machine.emitTag, Machine.switch]
      split_ifs <;> first
        | exact .going rfl ⟨rfl, rfl, rfl, rfl, rfl, hp.tail, ⟨rfl, rfl⟩, [], rfl, .inl ⟨rfl, rfl, rfl⟩⟩
        | exact .going rfl ⟨rfl, rfl, rfl, rfl, rfl, hp.tail, ⟨rfl, rfl, rfl⟩, ⟨rfl, rfl⟩, rfl⟩
        | exact rel_emit (s := consumed) (k := .endTag n) rfl rfl rfl rfl rfl rfl rfl rfl rfl hp.tail rfl rfl rfl
    | false =>
      simp only [tagToken, Tok.addName, Machine.appendName, Bool.false_eq_true, if_false, Tok.emitCur, Machine.emitTag,
        Machine.switch]
      split_ifs <;> first
        | exact .going rfl ⟨rfl, rfl, rfl, rfl, rfl, hp.tail, ⟨rfl, rfl⟩, [], rfl, .inl ⟨rfl, rfl, rfl⟩⟩
        | exact .going rfl ⟨rfl, rfl, rfl, rfl, rfl, hp.tail, ⟨rfl, rfl, rfl⟩, ⟨rfl, rfl⟩, rfl⟩
        | exact rel_start (s := consumed) rfl rfl rfl rfl rfl rfl rfl rfl hp.tail rfl rfl rfl rfl

set_option hygiene false in
macro "tag_start" : tactic => `(tactic| (
  sim_start
  obtain ⟨⟨hcur, hsc⟩, hattr⟩ := hr
  obtain ⟨e, n, sc, attrs⟩ := tag
  simp only at hcur hsc
  subst hcur hsc))

/-- `finishTag` with what `SameTag` gives -/
theorem tagToken_eq (e : Bool) (n : Str) : some (tagToken e n) = some (if e then .endTag n else .startTag n false []) := rfl

theorem sim_beforeAttributeName : Sim env p .beforeAttributeName := by
  tag_start
  cases rest with
  | nil =>
    one_step
    exact .going rfl ⟨rfl, rfl, rfl, rfl, rfl, hp, ⟨rfl, rfl⟩, .inr ⟨hattr, by simp⟩⟩
  | cons c r =>
    have hst := hattr.stored
    simp only [Tok.storeAttr] at hst
    one_step
    simp only [Machine.newAttribute, Tok.storeAttr, hst]
    by_cases h1 : c ∈ Standard.whitespace
    · simp only [if_pos h1]
      exact .going rfl ⟨rfl, rfl, rfl, rfl, rfl, hp.tail, ⟨rfl, rfl⟩, hattr⟩
    by_cases h2 : c = '/' ∨ c = '>'
    · simp only [if_neg h1, if_pos h2]
      refine .going rfl ⟨rfl, rfl, rfl, rfl, rfl, hp, ⟨rfl, rfl⟩, .inr ⟨hattr, ?_⟩⟩
      intro d hd
      simp only [List.head?_cons, Option.some.injEq] at hd
      subst hd; exact h2
    by_cases h3 : c = '='
    · simp only [if_neg h1, if_neg h2, if_pos h3]
      exact .going rfl ⟨rfl, rfl, rfl, rfl, rfl, hp.tail, ⟨rfl, rfl⟩, .inl ⟨attrs, rfl, by simp, rfl⟩⟩
    · simp only [if_neg h1, if_neg h2, if_neg h3]
      exact .going rfl ⟨rfl, rfl, rfl, rfl, rfl, hp, ⟨rfl, rfl⟩, .inr ⟨attrs, rfl, rfl, rfl, rfl, c, r, rfl, h1,
        fun h => h2 (.inl h), fun h => h2 (.inr h), h3⟩⟩

theorem sim_attributeName : Sim env p .attributeName := by
  tag_start
  cases rest with
  | nil =>
    one_step
    refine .going rfl ⟨rfl, rfl, rfl, rfl, rfl, hp, ⟨rfl, rfl⟩, ?_⟩
    rcases hattr with h | ⟨_, _, _, _, _, c, r, h, _⟩
    · exact .inl h
    · exact absurd h (by simp)
  | cons c r =>
    one_step
    by_cases h1 : c ∈ Standard.whitespace ∨ c = '/' ∨ c = '>'
    · simp only [if_pos h1]
      refine .going rfl ⟨rfl, rfl, rfl, rfl, rfl, hp, ⟨rfl, rfl⟩, ?_⟩
      rcases hattr with h | ⟨_, _, _, _, _, c', r', h, h2, h3, h4, _⟩
      · exact .inl h
      · simp only [List.cons.injEq] at h
        obtain ⟨rfl, rfl⟩ := h
        rcases h1 with h1 | h1 | h1
        · exact absurd h1 h2
        · exact absurd h1 h3
        · exact absurd h1 h4
    simp only [if_neg h1]
    by_cases h2 : c = '='
    · simp only [if_pos h2]
      refine .going rfl ⟨rfl, rfl, rfl, rfl, rfl, hp.tail, ⟨rfl, rfl⟩, ?_⟩
      rcases hattr with h | ⟨_, _, _, _, _, c', r', h, _, _, _, h5⟩
      · exact h
      · simp only [List.cons.injEq] at h
        obtain ⟨rfl, rfl⟩ := h
        exact absurd h2 h5
    simp only [if_neg h2]
    have key : ∀ d : Char, ∃ pre, Standard.firsts pre = as ∧ an ++ [d] ≠ [] ∧
        (attrs.dropLast ++ (attrs.getLast?.map fun a => (a.1 ++ [d], a.2)).toList) = pre ++ [(an ++ [d], av)] := by
      intro d
      rcases hattr with ⟨pre, e1, e2, e3⟩ | ⟨pre, e1, e2, e3, e4, _⟩
      · simp only at e1 e2 e3
        exact ⟨pre, e1, by simp, by rw [e3]; simp⟩
      · simp only at e1 e2 e3 e4
        exact ⟨pre, e1, by simp, by rw [e4, e2, e3]; simp⟩
    simp only [Machine.appendAttrName, Machine.onAttribute]
    split_ifs <;> exact .going rfl ⟨rfl, rfl, rfl, rfl, rfl, hp.tail, ⟨rfl, rfl⟩, .inl (key _)⟩

theorem sim_afterAttributeName : Sim env p .afterAttributeName := by
  tag_start
  have hpend : Pend ⟨rest, .afterAttributeName, consumed, an, av, as, some (tagToken e n), tmp, [], ls⟩
      ⟨.afterAttributeName, ret, rest, ⟨e, n, false, attrs⟩, com, doc, buf, mls, consumed, out, false, false⟩ := by
    rcases hattr with h | ⟨h, _⟩
    · exact h.pend
    · exact h
  cases rest with
  | nil => one_step; fin_ending
  | cons c r =>
    have hst := hpend.stored
    simp only [Tok.storeAttr] at hst
    have hnamed : c ≠ '/' → c ≠ '>' → Named ⟨c :: r, .afterAttributeName, consumed, an, av, as, some (tagToken e n), tmp, [], ls⟩
      ⟨.afterAttributeName, ret, c :: r, ⟨e, n, false, attrs⟩, com, doc, buf, mls, consumed, out, false, false⟩ := by
      intro h1 h2
      rcases hattr with h | ⟨_, h⟩
      · exact h
      · rcases h c rfl with h | h
        · exact absurd h h1
        · exact absurd h h2
    one_step
    simp only [Machine.newAttribute, Tok.storeAttr, hst]
    by_cases h1 : c ∈ Standard.whitespace
    · simp only [if_pos h1]
      have hw : ∀ d ∈ Standard.whitespace, d ≠ '/' ∧ d ≠ '>' := by decide
      exact .going rfl ⟨rfl, rfl, rfl, rfl, rfl, hp.tail, ⟨rfl, rfl⟩, .inl (hnamed (hw c h1).1 (hw c h1).2)⟩
    by_cases h2 : c = '/'
    · simp only [if_neg h1, if_pos h2]
      exact .going rfl ⟨rfl, rfl, rfl, rfl, rfl, hp.tail, ⟨rfl, rfl⟩, hpend⟩
    by_cases h3 : c = '='
    · simp only [if_neg h1, if_neg h2, if_pos h3]
      exact .going rfl ⟨rfl, rfl, rfl, rfl, rfl, hp.tail, ⟨rfl, rfl⟩, hnamed h2 (by rw [h3]; decide)⟩
    by_cases h4 : c = '>'
    · simp only [if_neg h1, if_neg h2, if_neg h3, if_pos h4]
      (apply rel_finish <;> first | rfl | exact hp.tail | exact hpend)
    · simp only [if_neg h1, if_neg h2, if_neg h3, if_neg h4]
      exact .going rfl ⟨rfl, rfl, rfl, rfl, rfl, hp, ⟨rfl, rfl⟩, .inr ⟨attrs, rfl, rfl, rfl, rfl, c, r, rfl, h1, h2, h4, h3⟩⟩

theorem sim_beforeAttributeValue : Sim env p .beforeAttributeValue := by
  tag_start
  cases rest with
  | nil =>
    refine ⟨_, .tail (.single (.state rfl (by simp))) (.state ?_ ?_), ?_⟩
    · simp [act, Machine.switch]
    · simp [act, Machine.switch]
    · sim_unfold
      fin_ending
  | cons c r =>
    one_step
    split_ifs <;> first
      | exact .going rfl ⟨rfl, rfl, rfl, rfl, rfl, hp.tail, ⟨rfl, rfl⟩, hattr⟩
      | exact .going rfl ⟨rfl, rfl, rfl, rfl, rfl, hp, ⟨rfl, rfl⟩, hattr⟩
      | (apply rel_finish <;> first | rfl | exact hp.tail | exact hattr.pend)

theorem sim_afterAttributeValueQuoted : Sim env p .afterAttributeValueQuoted := by
  tag_start
  cases rest with
  | nil => one_step; fin_ending
  | cons c r =>
    one_step
    split_ifs <;> first
      | exact .going rfl ⟨rfl, rfl, rfl, rfl, rfl, hp.tail, ⟨rfl, rfl⟩, hattr⟩
      | exact .going rfl ⟨rfl, rfl, rfl, rfl, rfl, hp, ⟨rfl, rfl⟩, hattr⟩
      | (apply rel_finish <;> first | rfl | exact hp.tail | exact hattr)

theorem sim_selfClosingStart : Sim env p .selfClosingStart := by
  tag_start
  cases rest with
  | nil => one_step; fin_ending
  | cons c r =>
    one_step
    split_ifs
    · cases e with
      | true => (apply rel_finish <;> first | rfl | exact hp.tail | exact hattr)
      | false => (apply rel_finish <;> first | rfl | exact hp.tail | exact hattr)
    · exact .going rfl ⟨rfl, rfl, rfl, rfl, rfl, hp, ⟨rfl, rfl⟩, hattr⟩

theorem named_value {t : Tok} {attrs : List (Str × Str)} (s : Str)
    (h : ∃ pre, Standard.firsts pre = t.attrs ∧ t.attrName ≠ [] ∧ attrs = pre ++ [(t.attrName, t.attrValue)]) :
    ∃ pre, Standard.firsts pre = t.attrs ∧ t.attrName ≠ [] ∧
      (attrs.dropLast ++ (attrs.getLast?.map fun a => (a.1, a.2 ++ s)).toList) = pre ++ [(t.attrName, t.attrValue ++ s)] := by
  obtain ⟨pre, h1, h2, h3⟩ := h
  exact ⟨pre, h1, h2, by rw [h3]; simp⟩

/-- a reference inside an attribute's value -/
theorem sim_valueRef (hT : TableOk env.names) {s : State} (hk : kind s = .value) (hattr : Standard.inAttribute (img s) = true)
    (t : Tok) (m : Machine) (r : Str) (hq : t.queue = []) (hs : t.state = s) (hr : t.rest = '&' :: r) (h : Going env s t m)
    (hact : act p m = { m with input := r, ret := img s, state := .characterReference }) (hsne : img s ≠ .characterReference) :
    ∃ m', ReflTransGen (Step env.names p) m m' ∧ Rel env p m.out ({ t with rest := r }.charRef env true) m' := by
  obtain ⟨o, r', hR, h1, h2, h3⟩ := CharRef.C51_reference env.names hT true ⟨r, t.consumed, t.attrValue⟩
  obtain ⟨hi, hc, hst, hg, hu, hp, hrel⟩ := h
  rw [hk] at hrel
  obtain ⟨⟨hcur, hsc⟩, hnamed⟩ := hrel
  have s1 : Step env.names p m (act p m) := .state hg (by rw [hst]; exact hsne)
  rw [hact] at s1
  have s2 : Step env.names p { m with input := r, ret := img s, state := .characterReference } _ :=
    .reference (text := o) (rest := r') hg rfl (by simp only [hattr]; exact hR)
  refine ⟨_, .tail (.single s1) s2, ?_⟩
  simp only [if_true] at h1 h2 h3
  have hset : settle p m.out t.queue t.state = (m.out, s) := by rw [hq, hs]; rfl
  rw [hr] at hp
  simp only [Tok.charRef, h1, h2, h3, Standard.afterReference, hattr, if_true, Machine.appendAttrValue, Machine.onAttribute,
    Machine.switch]
  refine .going ?_ ⟨rfl, hc, ?_, hg, hu, hp.tail.ref hR, ?_⟩
  · simp [hset]
  · simp [hset]
  · simp only [hset, hk]
    exact ⟨⟨hcur, hsc⟩, named_value o hnamed⟩

set_option hygiene false in
macro "sim_value" : tactic => `(tactic| (
  rintro t m f hq hs hf hgo
  by_cases hamp : ∃ r, t.rest = '&' :: r
  · obtain ⟨r, hr⟩ := hamp
    have hi := hgo.input
    have hst := hgo.state
    have hstep : step env f t = { t with rest := r }.charRef env true := by
      simp only [step, hs, hr]
      rfl
    rw [hstep]
    refine sim_valueRef env p hT rfl rfl t m r hq hs hr hgo ?_ (by simp [img])
    obtain ⟨ms, ret, rest, tag, com, doc, buf, mls, consumed, out, fl, stp⟩ := m
    simp only [img] at hst
    simp only at hi
    rw [hr] at hi
    subst hi hst
    rfl
  · revert hgo hf hs hq f m t
    rintro ⟨rest', s, consumed', an, av, as, cur, tmp, queue, ls⟩
      ⟨ms, ret, rest, tag, com, doc, buf, mls, consumed, out, fl, stp⟩
      f hq hs hf ⟨hi, hc, hst, hg, hu, hp, hr⟩ hamp
    simp only at hq hs hf hi hc hst hg hu hp hamp
    simp only [img] at hst
    subst hq hs hi hc hst hg hu
    simp only [kind, KindRel, Clean] at hr
    obtain ⟨⟨hcur, hsc⟩, hattr⟩ := hr
    obtain ⟨e, n, sc, attrs⟩ := tag
    simp only at hcur hsc
    subst hcur hsc
    cases rest with
    | nil => one_step; fin_ending
    | cons c r =>
      have hne : c ≠ '&' := fun h => hamp ⟨r, by rw [h]⟩
      one_step
      simp only [if_neg hne, Machine.appendAttrValue, Machine.onAttribute]
      split_ifs <;> first
        | exact .going rfl ⟨rfl, rfl, rfl, rfl, rfl, hp.tail, ⟨rfl, rfl⟩, hattr⟩
        | exact .going rfl ⟨rfl, rfl, rfl, rfl, rfl, hp.tail, ⟨rfl, rfl⟩, hattr.pend⟩
        | exact .going rfl ⟨rfl, rfl, rfl, rfl, rfl, hp.tail, ⟨rfl, rfl⟩, named_value _ hattr⟩
        | (apply rel_finish <;> first | rfl | exact hp.tail | exact hattr.pend)))

theorem sim_attributeValueDoubleQuoted (hT : TableOk env.names) : Sim env p .attributeValueDoubleQuoted := by sim_value
theorem sim_attributeValueSingleQuoted (hT : TableOk env.names) : Sim env p .attributeValueSingleQuoted := by sim_value
theorem sim_attributeValueUnquoted (hT : TableOk env.names) : Sim env p .attributeValueUnquoted := by sim_value

end Verif.HtmlTok
