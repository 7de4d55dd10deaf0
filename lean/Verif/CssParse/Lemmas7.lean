import Verif.CssParse.Lemmas6

/-! # C111: what is written is read: selectors -/

namespace Verif.CssParse

open Verif.CssTok (Token)
open Verif.Select (Part Simple Comb Matcher AttrSel)

def AttrOp.text : AttrOp → Str
  | .equals => ['=']
  | .includes => ['~', '=']
  | .dash => ['|', '=']
  | .pre => ['^', '=']
  | .suf => ['$', '=']
  | .sub => ['*', '=']

/-- the node of a simple selector -/
def WSimple.node : WSimple → Node
  | .type v => .ident v
  | .universal => .typeSelector none ['*']
  | .cls v => .classSelector v
  | .id v => .idSelector v
  | .pseudo v => .pseudoClassSelector (.ident v)
  | .pseudoElem v => .pseudoElementSelector v
  | .attr n => .attributeSelector n none [] []
  | .attrIs n op v _ ci => .attributeSelector n (some (.operator op.text)) v (if ci then ['i'] else [])

theorem WSimple.partOf (num : Str → Str) (w : WSimple) : CssParse.partOf num w.node = some (.simple w.simple) := by
  cases w with
  | attrIs n op v q ci =>
    have h : matcherOf (some (.operator op.text)) = op.matcher := by cases op <;> rfl
    simp only [WSimple.node, CssParse.partOf, WSimple.simple, h]
    cases ci <;> simp [eqCi]
  | _ => simp [WSimple.node, CssParse.partOf, WSimple.simple, Node.print, matcherOf, eqCi]

/-- not after `|` -/
def NB (p : List Token) : Prop := p.head? ≠ some (.delim '|')

theorem WSimple.last (w : WSimple) : ∃ l t, w.toks = l ++ [t] ∧ t ≠ .delim '|' := by
  cases w with
  | type v => exact ⟨[], _, rfl, by simp⟩
  | universal => exact ⟨[], _, rfl, by decide⟩
  | cls v => exact ⟨[_], _, rfl, by simp⟩
  | id v => exact ⟨[], _, rfl, by simp⟩
  | pseudo v => exact ⟨[_], _, rfl, by simp⟩
  | pseudoElem v => exact ⟨[_, _], _, rfl, by simp⟩
  | attr n => exact ⟨[_, _], _, rfl, by simp⟩
  | attrIs n op v q ci => exact ⟨_, _, rfl, by simp⟩

theorem WSimple.nb (w : WSimple) (p : List Token) : NB (w.toks.reverse ++ p) := by
  obtain ⟨l, t, e, h⟩ := w.last
  rw [e]
  simpa [NB] using h

theorem WSimple.head (w : WSimple) : ∃ t l, w.toks = t :: l ∧ t ≠ .whitespace := by
  cases w with
  | attrIs n op v q ci => exact ⟨.lBracket, _, rfl, by simp⟩
  | _ => exact ⟨_, _, rfl, by simp⟩

/-- the combinator a space stands for -/
def sep (space : Bool) : List Node := if space then [.combinator [' ']] else []

/-- a part that is read goes to the end of what has been read -/
theorem selectorRound_part {env : Env} {k : Rec} {ch : List Node} {sp sk f sk' : Bool} {p r : List Token} {t : Token} {d a : Nat}
    {n : Node} {s' : PS} (ht : t ≠ .whitespace)
    (h : selectorPart env k t ⟨t :: p, r, d, a⟩ = .ok (some (n, f, sk')) s') :
    selectorRound env k ⟨ch, sp, sk⟩ ⟨p, t :: r, d, a⟩ = .ok (.inl ⟨ch ++ sep (sp && !f) ++ [n], false, sk'⟩) s' := by
  unfold selectorRound
  rw [bind_ok (atEof_run _ _ _ _ _), if_neg (by simp), bind_ok (consume_run _ _ _ _ _), if_neg ht, bind_ok h]
  simp only
  cases hf : (sp && !f)
  · simp [sep, pure_run]
  · simp [sep, pure_run]

theorem attributeOperator_run (op : AttrOp) (p r : List Token) (d a : Nat) :
    attributeOperator ⟨p, op.toks ++ r, d, a⟩ = .ok (.operator op.text) ⟨op.toks.reverse ++ p, r, d, a⟩ := by
  cases op <;> rfl

theorem lookahead_ok {p r : List Token} {t : Token} {d a : Nat} {n : List Token} (h : n = t :: r) :
    lookahead 0 ⟨p, n, d, a⟩ = .ok t ⟨p, n, d, a⟩ := by
  subst h
  exact lookahead0_run p r t d a

theorem attributeValue_run (op : AttrOp) (v : Str) (q : Bool) (p r : List Token) (d a : Nat) (t : Token) (ht : isIdent t = false) :
    attributeValue t ⟨p, op.toks ++ (if q then Token.quotedString v else .ident v) :: r, d, a⟩ =
      .ok (some (.operator op.text), v) ⟨(if q then Token.quotedString v else .ident v) :: (op.toks.reverse ++ p), r, d, a⟩ := by
  unfold attributeValue
  rw [if_neg (by simp [ht]), bind_ok (attributeOperator_run _ _ _ _ _)]
  cases q
  · simp only [Bool.false_eq_true, if_false]
    rw [bind_ok (ws_none _ _ _ (by simp) _ _), bind_ok (lookahead0_run _ _ _ _ _)]
    rfl
  · simp only [if_true]
    rw [bind_ok (ws_none _ _ _ (by simp) _ _), bind_ok (lookahead0_run _ _ _ _ _)]
    rfl

/-- an attribute selector takes the white space after it -/
theorem attribute_run (w : WSimple) (hw : w.isAttr = true) (p r : List Token) (d a : Nat) (b : Bool) (t : Token)
    (ht : t ≠ .whitespace) :
    attributeSelector ⟨p, w.toks ++ (ws b ++ t :: r), d, a⟩ = .ok w.node ⟨(ws b).reverse ++ (w.toks.reverse ++ p), t :: r, d, a⟩ := by
  have ident : ∀ (q l : List Token) (v : Str), consumeAnyIdent ⟨q, .ident v :: l, d, a⟩ = .ok v ⟨.ident v :: q, l, d, a⟩ :=
    fun _ _ _ => rfl
  cases w with
  | attr n =>
    unfold attributeSelector
    simp only [WSimple.toks, List.cons_append, List.nil_append]
    rw [bind_ok (expect_run _ _ _ _ _), bind_ok (ws_none _ _ _ (by simp) _ _), bind_ok (ident _ _ _),
      bind_ok (ws_none _ _ _ (by simp) _ _), bind_ok (lookahead0_run _ _ _ _ _), if_neg (by simp), bind_ok (expect_run _ _ _ _ _),
      bind_ok (ws_ok b _ _ t ht _ _)]
    simp [pure_run, WSimple.node]
  | attrIs n op v q ci =>
    obtain ⟨u, l, eu, hu1, hu2, hu3⟩ : ∃ u l, op.toks = u :: l ∧ u ≠ .whitespace ∧ u ≠ .rBracket ∧ isIdent u = false := by
      cases op <;> exact ⟨_, _, rfl, by simp, by simp, rfl⟩
    have e0 : (WSimple.attrIs n op v q ci).toks ++ (ws b ++ t :: r) = .lBracket :: .ident n :: (op.toks ++
        (if q then Token.quotedString v else .ident v) ::
          ((if ci then [.whitespace, .ident ['i']] else []) ++ .rBracket :: (ws b ++ t :: r))) := by
      simp [WSimple.toks]
    have e1 : (WSimple.attrIs n op v q ci).toks.reverse ++ p = .rBracket :: ((if ci then [.ident ['i'], .whitespace] else []) ++
        (if q then Token.quotedString v else .ident v) :: (op.toks.reverse ++ .ident n :: .lBracket :: p)) := by
      cases ci <;> simp [WSimple.toks]
    rw [e0, e1]
    unfold attributeSelector
    rw [bind_ok (expect_run _ _ _ _ _), bind_ok (ws_none _ _ _ (by simp) _ _), bind_ok (ident _ _ _)]
    generalize eX : (if q then Token.quotedString v else .ident v) ::
          ((if ci then [.whitespace, .ident ['i']] else []) ++ .rBracket :: (ws b ++ t :: r)) = X
    have h1 : skipWs ⟨.ident n :: .lBracket :: p, op.toks ++ X, d, a⟩ = .ok () ⟨.ident n :: .lBracket :: p, op.toks ++ X, d, a⟩ := by
      rw [eu]
      exact ws_none _ _ _ hu1 _ _
    have h2 : lookahead 0 ⟨.ident n :: .lBracket :: p, op.toks ++ X, d, a⟩ = .ok u ⟨.ident n :: .lBracket :: p, op.toks ++ X, d, a⟩ :=
      lookahead_ok (r := l ++ X) (by rw [eu]; rfl)
    rw [bind_ok h1, bind_ok h2, if_pos hu2, ← eX, bind_ok (attributeValue_run op v q _ _ d a u hu3)]
    simp only
    cases ci with
    | false =>
      simp only [Bool.false_eq_true, if_false, List.nil_append]
      have h3 : ∀ q', attributeFlags ⟨q', .rBracket :: (ws b ++ t :: r), d, a⟩ = .ok [] ⟨q', .rBracket :: (ws b ++ t :: r), d, a⟩ := by
        intro q'
        unfold attributeFlags
        rw [bind_ok (lookahead0_run _ _ _ _ _)]
        rfl
      rw [bind_ok (ws_none _ _ _ (by simp) _ _), bind_ok (h3 _), bind_ok (expect_run _ _ _ _ _), bind_ok (ws_ok b _ _ t ht _ _)]
      simp [pure_run, WSimple.node]
    | true =>
      simp only [if_true, List.cons_append, List.nil_append]
      have h3 : ∀ q', attributeFlags ⟨q', .ident ['i'] :: .rBracket :: (ws b ++ t :: r), d, a⟩ =
          .ok ['i'] ⟨.ident ['i'] :: q', .rBracket :: (ws b ++ t :: r), d, a⟩ := by
        intro q'
        unfold attributeFlags
        rw [bind_ok (lookahead0_run _ _ _ _ _)]
        rw [if_pos (show isIdent (.ident ['i']) = true from rfl), bind_ok (ident _ _ _), bind_ok (ws_none _ _ _ (by simp) _ _)]
        rfl
      have h4 : ∀ q', skipWs ⟨q', .whitespace :: .ident ['i'] :: .rBracket :: (ws b ++ t :: r), d, a⟩ =
          .ok () ⟨.whitespace :: q', .ident ['i'] :: .rBracket :: (ws b ++ t :: r), d, a⟩ :=
        fun q' => ws_ok true _ _ _ (by simp) _ _
      rw [bind_ok (h4 _), bind_ok (h3 _), bind_ok (expect_run _ _ _ _ _), bind_ok (ws_ok b _ _ t ht _ _)]
      simp [pure_run, WSimple.node, ws]
  | type v | universal | cls v | id v | pseudo v | pseudoElem v => simp [WSimple.isAttr] at hw

theorem simple_run (env : Env) (k : Rec) (w : WSimple) (hw : w.isAttr = false) (ch : List Node) (sp sk : Bool) (p r : List Token)
    (hp : NB p) (d a : Nat) :
    selectorRound env k ⟨ch, sp, sk⟩ ⟨p, w.toks ++ r, d, a⟩ =
      .ok (.inl ⟨ch ++ sep sp ++ [w.node], false, false⟩) ⟨w.toks.reverse ++ p, r, d, a⟩ := by
  have hsp : sep sp = sep (sp && !false) := by simp
  rw [hsp]
  cases w with
  | type v => exact selectorRound_part (by simp) rfl
  | id v => exact selectorRound_part (by simp) rfl
  | cls v => exact selectorRound_part (by simp) rfl
  | pseudo v =>
    refine selectorRound_part (r := .ident v :: r) (by simp) ?_
    show (lookahead 0 >>= _) _ = _
    rw [bind_ok (lookahead0_run _ _ _ _ _), if_neg (by simp)]
    rfl
  | pseudoElem v =>
    refine selectorRound_part (r := .colon :: .ident v :: r) (by simp) ?_
    show (lookahead 0 >>= _) _ = _
    rw [bind_ok (lookahead0_run _ _ _ _ _), if_pos rfl]
    rfl
  | universal =>
    refine selectorRound_part (r := r) (by simp) ?_
    have e1 : typeIdentOrAsterisk ⟨p, .delim '*' :: r, d, a⟩ = .ok ['*'] ⟨.delim '*' :: p, r, d, a⟩ := by
      unfold typeIdentOrAsterisk
      rw [bind_ok (lookahead0_run _ _ _ _ _)]
      rfl
    have e2 : typeSelector ⟨p, .delim '*' :: r, d, a⟩ = .ok (.typeSelector none ['*']) ⟨.delim '*' :: p, r, d, a⟩ := by
      unfold typeSelector
      have hc : ¬ (p.head?.getD .eof = Token.delim '|') := by
        intro e
        cases hh : p.head? with
        | none => rw [hh] at e; cases e
        | some u => rw [hh] at e; exact hp (by rw [hh]; exact congrArg some e)
      have hc1 : current ⟨p, .delim '*' :: r, d, a⟩ = .ok (p.head?.getD .eof) ⟨p, .delim '*' :: r, d, a⟩ := rfl
      have hc2 : current ⟨.delim '*' :: p, r, d, a⟩ = .ok (.delim '*') ⟨.delim '*' :: p, r, d, a⟩ := rfl
      rw [bind_ok (a := ['*']) (s' := ⟨.delim '*' :: p, r, d, a⟩)]
      · rfl
      · rw [bind_ok hc1, if_neg hc, bind_ok e1, bind_ok hc2, if_neg (by decide)]
        rfl
    unfold selectorPart
    simp only
    rw [if_neg (by decide), if_neg (by decide), if_pos (by decide), bind_ok (reconsume_run _ _ _ _ _), bind_ok e2]
    rfl
  | attr n => simp [WSimple.isAttr] at hw
  | attrIs n op v q ci => simp [WSimple.isAttr] at hw

theorem attr_run (env : Env) (k : Rec) (w : WSimple) (hw : w.isAttr = true) (ch : List Node) (sp sk : Bool) (p r : List Token)
    (b : Bool) (t : Token) (ht : t ≠ .whitespace) (d a : Nat) :
    selectorRound env k ⟨ch, sp, sk⟩ ⟨p, w.toks ++ (ws b ++ t :: r), d, a⟩ =
      .ok (.inl ⟨ch ++ sep sp ++ [w.node], false, false⟩) ⟨(ws b).reverse ++ (w.toks.reverse ++ p), t :: r, d, a⟩ := by
  have h := attribute_run w hw p r d a b t ht
  have hsp : sep sp = sep (sp && !false) := by simp
  rw [hsp]
  obtain ⟨l, e⟩ : ∃ l, w.toks ++ (ws b ++ t :: r) = .lBracket :: l := by
    cases w with
    | attr n => exact ⟨_, rfl⟩
    | attrIs n op v q ci => exact ⟨_, rfl⟩
    | type v | universal | cls v | id v | pseudo v | pseudoElem v => simp [WSimple.isAttr] at hw
  rw [e] at h ⊢
  refine selectorRound_part (by simp) ?_
  unfold selectorPart
  simp only
  rw [bind_ok (reconsume_run _ _ _ _ _), bind_ok h]
  rfl

/-- the nodes of a compound selector -/
def WCompound.nodes (c : WCompound) : List Node := c.map WSimple.node

theorem nb_compound (c : WCompound) (p : List Token) (hp : NB p) : NB ((WCompound.toks c).reverse ++ p) := by
  induction c generalizing p with
  | nil => exact hp
  | cons w c ih =>
    have := ih (w.toks.reverse ++ p) (w.nb p)
    simpa [WCompound.toks] using this

theorem compound_head (c : WCompound) (h : c ≠ []) : ∃ t l, WCompound.toks c = t :: l ∧ t ≠ .whitespace := by
  cases c with
  | nil => exact absurd rfl h
  | cons w c =>
    obtain ⟨t, l, e, ht⟩ := w.head
    exact ⟨t, _, by simp only [WCompound.toks, List.flatMap_cons, e, List.cons_append]; rfl, ht⟩

/-- a compound selector and the white space after it -/
theorem compound_runs (env : Env) (k : Rec) (b : Bool) (t : Token) (ht : t ≠ .whitespace) (r : List Token) (d a : Nat) (y : List Node)
    (s' : PS) : ∀ (c : WCompound), c ≠ [] → ∀ (ch : List Node) (sp sk : Bool) (p : List Token), NB p →
    (∀ sp', (sp' = b ∨ (sp' = false ∧ c.getLast?.any WSimple.isAttr = true)) →
      Runs (selectorRound env k) ⟨ch ++ sep sp ++ WCompound.nodes c, sp', false⟩
        ⟨(ws b).reverse ++ ((WCompound.toks c).reverse ++ p), t :: r, d, a⟩ y s') →
    Runs (selectorRound env k) ⟨ch, sp, sk⟩ ⟨p, WCompound.toks c ++ (ws b ++ t :: r), d, a⟩ y s'
  | [], h, _, _, _, _, _, _ => absurd rfl h
  | [w], _, ch, sp, sk, p, hp, h => by
    have e1 : WCompound.toks [w] = w.toks := by simp [WCompound.toks]
    have e2 : WCompound.nodes [w] = [w.node] := rfl
    rw [e1] at h ⊢
    rw [e2] at h
    cases ha : w.isAttr with
    | true => exact .step (attr_run env k w ha ch sp sk p r b t ht d a) (h false (.inr ⟨rfl, by simp [ha]⟩))
    | false =>
      refine .step (simple_run env k w ha ch sp sk p (ws b ++ t :: r) hp d a) ?_
      cases b with
      | false => exact h false (.inl rfl)
      | true => exact .step rfl (h true (.inl rfl))
  | w :: v :: c, _, ch, sp, sk, p, hp, h => by
    have e1 : WCompound.toks (w :: v :: c) = w.toks ++ WCompound.toks (v :: c) := by simp [WCompound.toks]
    have e2 : WCompound.nodes (w :: v :: c) = w.node :: WCompound.nodes (v :: c) := rfl
    rw [e1] at h ⊢
    rw [List.append_assoc]
    have ih := compound_runs env k b t ht r d a y s' (v :: c) (by simp) (ch ++ sep sp ++ [w.node]) false false (w.toks.reverse ++ p)
      (w.nb p) (fun sp' hs => by
        have := h sp' (by simpa using hs)
        rw [e2] at this
        simpa [sep] using this)
    obtain ⟨u, l, eu, hu⟩ := compound_head (v :: c) (by simp)
    cases ha : w.isAttr with
    | true =>
      have := attr_run env k w ha ch sp sk p (l ++ (ws b ++ t :: r)) false u hu d a
      rw [eu] at ih ⊢
      exact .step this ih
    | false => exact .step (simple_run env k w ha ch sp sk p _ hp d a) ih

/-- the tokens and nodes of what follows the first compound selector -/
def restToks (l : List (WComb × WCompound)) : List Token := l.flatMap fun x => x.1.toks ++ WCompound.toks x.2
def WComb.node : WComb → Node
  | .descendant => .combinator [' ']
  | .child _ _ => .combinator ['>']
  | .next _ _ => .combinator ['+']
  | .subsequent _ _ => .combinator ['~']
def restNodes (l : List (WComb × WCompound)) : List Node := l.flatMap fun x => x.1.node :: WCompound.nodes x.2

theorem sign_run (env : Env) (k : Rec) (c : Char) (hc : c ∈ ['>', '+', '~']) (aft : Bool) (ch : List Node) (sp sk : Bool)
    (p l : List Token) (u : Token) (hu : u ≠ .whitespace) (d a : Nat) :
    selectorRound env k ⟨ch, sp, sk⟩ ⟨p, .delim c :: (ws aft ++ u :: l), d, a⟩ =
      .ok (.inl ⟨ch ++ [.combinator [c]], false, false⟩) ⟨(ws aft).reverse ++ .delim c :: p, u :: l, d, a⟩ := by
  have h : combinator ⟨p, .delim c :: (ws aft ++ u :: l), d, a⟩ =
      .ok (.combinator [c]) ⟨(ws aft).reverse ++ .delim c :: p, u :: l, d, a⟩ := by
    unfold combinator
    rw [bind_ok (a := [c]) (s' := ⟨.delim c :: p, ws aft ++ u :: l, d, a⟩)]
    · rw [bind_ok (ws_ok aft _ _ u hu _ _)]
      rfl
    · simp only [List.mem_cons, List.not_mem_nil, or_false] at hc
      rcases hc with rfl | rfl | rfl <;> rfl
  have hs : sep (sp && !true) = [] := by simp [sep]
  have := selectorRound_part (env := env) (k := k) (ch := ch) (sp := sp) (sk := sk) (f := true) (sk' := false) (p := p)
    (r := ws aft ++ u :: l) (t := .delim c) (d := d) (a := a) (n := .combinator [c])
    (s' := ⟨(ws aft).reverse ++ .delim c :: p, u :: l, d, a⟩) (by simp) (by
      unfold selectorPart
      simp only
      rw [if_pos (by simp only [List.mem_cons, List.not_mem_nil, or_false] at hc ⊢; rcases hc with h | h | h <;> simp [h]),
        bind_ok (reconsume_run _ _ _ _ _), bind_ok h]
      rfl)
  rw [hs] at this
  simpa using this

/-- a complex selector and the white space after it -/
theorem selector_runs (env : Env) (k : Rec) (b : Bool) (t : Token) (ht : t ≠ .whitespace) (r : List Token) (d a : Nat) (y : List Node)
    (s' : PS) : ∀ (rest : List (WComb × WCompound)) (c : WCompound), c ≠ [] → joined c rest →
    ∀ (ch : List Node) (sp sk : Bool) (p : List Token), NB p →
    (∀ sp', (sp' = b ∨ sp' = false) →
      Runs (selectorRound env k) ⟨ch ++ sep sp ++ (WCompound.nodes c ++ restNodes rest), sp', false⟩
        ⟨(ws b).reverse ++ ((WCompound.toks c ++ restToks rest).reverse ++ p), t :: r, d, a⟩ y s') →
    Runs (selectorRound env k) ⟨ch, sp, sk⟩ ⟨p, WCompound.toks c ++ restToks rest ++ (ws b ++ t :: r), d, a⟩ y s'
  | [], c, hc, _, ch, sp, sk, p, hp, h => by
    simp only [restNodes, restToks, List.flatMap_nil, List.append_nil] at h ⊢
    exact compound_runs env k b t ht r d a y s' c hc ch sp sk p hp fun sp' hs => h sp' (hs.imp_right And.left)
  | (j, n) :: rest, c, hc, hj, ch, sp, sk, p, hp, h => by
    obtain ⟨hn, hd, hj'⟩ := hj
    obtain ⟨u, l, eu, hu⟩ := compound_head n hn
    have e0 : ∀ (X : List Token), WCompound.toks c ++ restToks ((j, n) :: rest) ++ X =
        WCompound.toks c ++ (j.toks ++ (WCompound.toks n ++ restToks rest ++ X)) := by
      intro X
      simp [restToks]
    have e1 : (WCompound.toks c ++ restToks ((j, n) :: rest)).reverse ++ p =
        (WCompound.toks n ++ restToks rest).reverse ++ (j.toks.reverse ++ ((WCompound.toks c).reverse ++ p)) := by
      simp [restToks]
    have e2 : restNodes ((j, n) :: rest) = j.node :: (WCompound.nodes n ++ restNodes rest) := by simp [restNodes]
    rw [e0]
    rw [e1, e2] at h
    have sign : ∀ (cc : Char) (bef aft : Bool), cc ∈ ['>', '+', '~'] → j.toks = ws bef ++ [.delim cc] ++ ws aft →
        j.node = .combinator [cc] →
        Runs (selectorRound env k) ⟨ch, sp, sk⟩
          ⟨p, WCompound.toks c ++ (j.toks ++ (WCompound.toks n ++ restToks rest ++ (ws b ++ t :: r))), d, a⟩ y s' := by
      intro cc bef aft hcc ej ejn
      rw [ej]
      rw [ej, ejn] at h
      have e3 : ws bef ++ [.delim cc] ++ ws aft ++ (WCompound.toks n ++ restToks rest ++ (ws b ++ t :: r)) =
        ws bef ++ .delim cc :: (ws aft ++ (WCompound.toks n ++ restToks rest ++ (ws b ++ t :: r))) := by simp
      rw [e3]
      refine compound_runs env k bef (.delim cc) (by simp) _ d a y s' c hc ch sp sk p hp fun sp' _ => ?_
      have hstep := sign_run env k cc hcc aft (ch ++ sep sp ++ WCompound.nodes c) sp' false
        ((ws bef).reverse ++ ((WCompound.toks c).reverse ++ p)) (l ++ restToks rest ++ (ws b ++ t :: r)) u hu d a
      have e4 : WCompound.toks n ++ restToks rest ++ (ws b ++ t :: r) = u :: (l ++ restToks rest ++ (ws b ++ t :: r)) := by
        rw [eu]; simp
      rw [e4]
      refine .step hstep ?_
      rw [← e4]
      refine selector_runs env k b t ht r d a y s' rest n hn hj' _ false false _ ?_ fun sp'' hs => ?_
      · cases aft
        · show NB (.delim cc :: _)
          simp only [NB, List.head?_cons, ne_eq, Option.some.injEq, Token.delim.injEq]
          rintro rfl
          simp at hcc
        · show NB (.whitespace :: _)
          simp [NB]
      · have := h sp'' hs
        simpa [sep] using this
    cases j with
    | child bef aft => exact sign '>' bef aft (by simp) rfl rfl
    | next bef aft => exact sign '+' bef aft (by simp) rfl rfl
    | subsequent bef aft => exact sign '~' bef aft (by simp) rfl rfl
    | descendant =>
      have e4 : WCompound.toks n ++ restToks rest ++ (ws b ++ t :: r) = u :: (l ++ restToks rest ++ (ws b ++ t :: r)) := by
        rw [eu]; simp
      show Runs _ _ ⟨p, WCompound.toks c ++ (ws true ++ (WCompound.toks n ++ restToks rest ++ (ws b ++ t :: r))), d, a⟩ _ _
      rw [e4]
      refine compound_runs env k true u hu _ d a y s' c hc ch sp sk p hp fun sp' hs => ?_
      rcases hs with rfl | ⟨_, hs⟩
      · rw [← e4]
        refine selector_runs env k b t ht r d a y s' rest n hn hj' _ true false _ (by simp [NB, ws]) fun sp'' hs => ?_
        have := h sp'' hs
        simpa [sep, WComb.node, WComb.toks, ws] using this
      · exact absurd hs (hd rfl)

/-- the nodes of the selectors of a rule -/
def WSelector.nodes (w : WSelector) : List Node := WCompound.nodes w.first ++ restNodes w.rest
def moreToks (l : List (Bool × WSelector)) : List Token := l.flatMap fun x => [.comma] ++ ws x.1 ++ x.2.toks
def moreNodes (l : List (Bool × WSelector)) : List Node := l.flatMap fun x => .comma :: x.2.nodes
def WSelectors.nodes (l : WSelectors) : List Node := l.first.nodes ++ moreNodes l.more

/-- a token at which the selectors end -/
def Halt (t : Token) : Prop := t = .lCurly ∨ ∃ c, t = .delim c ∧ c ∉ ['+', '>', '~', '/', '.', '|', '*', '#', '&']

theorem Halt.ne {t : Token} (h : Halt t) : t ≠ .whitespace ∧ t ≠ .comma := by
  rcases h with rfl | ⟨c, rfl, _⟩ <;> exact ⟨by simp, by simp⟩

theorem Halt.run {t : Token} (h : Halt t) (env : Env) (k : Rec) (x : SelState) (p r : List Token) (d a : Nat) :
    selectorRound env k x ⟨p, t :: r, d, a⟩ = .ok (.inr x.children) ⟨p, t :: r, d, a⟩ := by
  rcases h with rfl | ⟨c, rfl, hc⟩
  · rfl
  · unfold selectorRound
    rw [bind_ok (atEof_run _ _ _ _ _), if_neg (by simp), bind_ok (consume_run _ _ _ _ _), if_neg (by simp)]
    have : selectorPart env k (.delim c) ⟨.delim c :: p, r, d, a⟩ = .ok none ⟨p, .delim c :: r, d, a⟩ := by
      simp only [List.mem_cons, List.not_mem_nil, or_false, not_or] at hc
      obtain ⟨h1, h2, h3, h4, h5, h6, h7, h8, h9⟩ := hc
      unfold selectorPart
      simp only
      rw [if_neg (by simp [h1, h2, h3, h4]), if_neg h5, if_neg (by simp [h6, h7]), if_neg h8, if_neg h9,
        bind_ok (reconsume_run _ _ _ _ _)]
      rfl
    rw [bind_ok this]
    rfl

theorem selectors_runs (env : Env) (k : Rec) (bb : Bool) (t : Token) (ht : Halt t) (r : List Token) (d a : Nat) :
    ∀ (more : List (Bool × WSelector)) (w : WSelector), w.Ok → (∀ x ∈ more, x.2.Ok) →
    ∀ (ch : List Node) (sk : Bool) (p : List Token), NB p →
    Runs (selectorRound env k) ⟨ch, false, sk⟩ ⟨p, w.toks ++ moreToks more ++ (ws bb ++ t :: r), d, a⟩
      (ch ++ (w.nodes ++ moreNodes more)) ⟨(ws bb).reverse ++ ((w.toks ++ moreToks more).reverse ++ p), t :: r, d, a⟩
  | [], w, hw, _, ch, sk, p, hp => by
    simp only [moreToks, moreNodes, List.flatMap_nil, List.append_nil]
    refine selector_runs env k bb t ht.ne.1 r d a _ _ w.rest w.first hw.1 hw.2 ch false sk p hp fun sp' _ => ?_
    refine .stop ?_
    simp only [sep, Bool.false_eq_true, if_false, List.append_nil]
    exact ht.run env k _ _ _ _ _
  | (b, v) :: more, w, hw, hm, ch, sk, p, hp => by
    have e0 : w.toks ++ moreToks ((b, v) :: more) ++ (ws bb ++ t :: r) =
        WCompound.toks w.first ++ restToks w.rest ++ (ws false ++ .comma :: (ws b ++ (v.toks ++ moreToks more ++ (ws bb ++ t :: r)))) := by
      simp [moreToks, WSelector.toks, restToks, ws]
    have e1 : (ws bb).reverse ++ ((w.toks ++ moreToks ((b, v) :: more)).reverse ++ p) =
        (ws bb).reverse ++ ((v.toks ++ moreToks more).reverse ++ ((ws b).reverse ++ .comma :: (w.toks.reverse ++ p))) := by
      simp [moreToks]
    have e2 : ch ++ (w.nodes ++ moreNodes ((b, v) :: more)) = ch ++ w.nodes ++ [.comma] ++ (v.nodes ++ moreNodes more) := by
      simp [moreNodes]
    rw [e0, e1, e2]
    refine selector_runs env k false .comma (by simp) _ d a _ _ w.rest w.first hw.1 hw.2 ch false sk p hp fun sp' hs => ?_
    have hsp : sp' = false := by rcases hs with h | h <;> exact h
    subst hsp
    have ih := fun sk => selectors_runs env k bb t ht r d a more v (hm (b, v) (by simp)) (fun x hx => hm x (by simp [hx]))
      (ch ++ w.nodes ++ [.comma]) sk ((ws b).reverse ++ .comma :: (w.toks.reverse ++ p)) (by cases b <;> simp [NB, ws])
    refine .step (y := ⟨ch ++ w.nodes ++ [.comma], false, true⟩)
      (s1 := ⟨.comma :: (w.toks.reverse ++ p), ws b ++ (v.toks ++ moreToks more ++ (ws bb ++ t :: r)), d, a⟩) ?_ ?_
    · have := selectorRound_part (env := env) (k := k) (ch := ch ++ w.nodes) (sp := false) (sk := false) (f := false) (sk' := true)
        (p := w.toks.reverse ++ p) (r := ws b ++ (v.toks ++ moreToks more ++ (ws bb ++ t :: r))) (t := .comma) (d := d) (a := a)
        (n := .comma) (s' := ⟨.comma :: (w.toks.reverse ++ p), ws b ++ (v.toks ++ moreToks more ++ (ws bb ++ t :: r)), d, a⟩)
        (by simp) rfl
      simpa [sep, WSelector.nodes, WSelector.toks, restToks, ws] using this
    · cases b with
      | false => exact ih true
      | true => exact .step rfl (ih true)

theorem selectorList_run (env : Env) (n : Nat) (l : WSelectors) (hl : l.Ok) (bb : Bool) (t : Token) (ht : Halt t) (p r : List Token) (hp : NB p) (d a : Nat) :
    selectorList env (Rec.at env n) ⟨p, l.toks ++ (ws bb ++ t :: r), d, a⟩ =
      .ok (.selectorList [.selector l.nodes]) ⟨(ws bb).reverse ++ (l.toks.reverse ++ p), t :: r, d, a⟩ := by
  have hs : selector env (Rec.at env n) ⟨p, l.toks ++ (ws bb ++ t :: r), d, a⟩ =
      .ok (.selector l.nodes) ⟨(ws bb).reverse ++ (l.toks.reverse ++ p), t :: r, d, a⟩ := by
    unfold selector
    have hg := good_loop (good_selectorRound (env := env) (good_at env n)) (strict_selectorRound (env := env) (good_at env n))
      ⟨[], false, false⟩
    have := (selectors_runs env (Rec.at env n) bb t ht r d a l.more l.first hl.1 hl.2 [] false p hp).forever hg
    exact bind_ok this
  obtain ⟨u, q, e⟩ : ∃ u q, l.toks ++ (ws bb ++ t :: r) = u :: q := by
    cases h : l.toks ++ (ws bb ++ t :: r) with
    | nil => simp at h
    | cons u q => exact ⟨u, q, rfl⟩
  unfold selectorList
  rw [bind_ok (rounds_stop (b := [.selector l.nodes]) (s' := ⟨(ws bb).reverse ++ (l.toks.reverse ++ p), t :: r, d, a⟩) _)]
  · rfl
  · have ha : atEof ⟨p, l.toks ++ (ws bb ++ t :: r), d, a⟩ = .ok false ⟨p, l.toks ++ (ws bb ++ t :: r), d, a⟩ := by
      rw [e]; rfl
    rw [bind_ok ha, if_neg (by simp), bind_ok hs, bind_ok (consume_run _ _ _ _ _), if_pos ht.ne.2, bind_ok (reconsume_run _ _ _ _ _)]
    rfl

end Verif.CssParse
