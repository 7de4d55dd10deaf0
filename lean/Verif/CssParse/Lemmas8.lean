import Verif.CssParse.Lemmas7

/-! # C111: what is written is read: rules and stylesheets -/

namespace Verif.CssParse

open Verif.CssTok (Token)
open Verif.Select (Part Simple Comb Matcher AttrSel)

/-- the node of a rule -/
def WRule.node (w : WRule) : Node :=
  .rule (some (.selectorList [.selector w.selectors.nodes])) (some (.block (w.decls.map WDecl.node)))

/-- the tokens of a rule up to its closing brace -/
def WRule.core (w : WRule) : List Token :=
  w.selectors.toks ++ (ws w.beforeBlock ++ .lCurly :: (ws w.inBlock ++ (bodyToks w.init w.last ++ [.rCurly])))

theorem WRule.toks_core (w : WRule) : w.toks = w.core ++ ws w.after := by
  simp [WRule.toks, WRule.core, bodyToks]

theorem body_head (init : List (WDecl × Bool)) (last : Option WDecl) (r : List Token) :
    ∃ t l, bodyToks init last ++ .rCurly :: r = t :: l ∧ t ≠ .whitespace := by
  cases init with
  | cons x init => exact ⟨.ident x.1.property, _, rfl, by simp⟩
  | nil => cases last with
    | none => exact ⟨.rCurly, _, rfl, by simp⟩
    | some w => exact ⟨.ident w.property, _, rfl, by simp⟩

theorem ruleInternal_run (env : Env) (w : WRule) (hw : w.Ok) (n : Nat) (hn : w.nestLe n) (p r : List Token) (hp : NB p) (d a : Nat)
    (hd : ∀ x ∈ w.decls, d + 1 + x.values.nest ≤ maxDepth) (hd' : d < maxDepth) :
    ruleInternal env (Rec.at env (n + 1)) ⟨p, w.core ++ r, d, a⟩ = .ok w.node ⟨w.core.reverse ++ p, r, d, a⟩ := by
  have e0 : w.core ++ r = w.selectors.toks ++ (ws w.beforeBlock ++ .lCurly :: (ws w.inBlock ++ (bodyToks w.init w.last ++ .rCurly :: r))) := by
    simp [WRule.core]
  have e1 : w.core.reverse ++ p = .rCurly :: ((bodyToks w.init w.last).reverse ++ ((ws w.inBlock).reverse ++
      .lCurly :: ((ws w.beforeBlock).reverse ++ (w.selectors.toks.reverse ++ p)))) := by
    simp [WRule.core]
  rw [e0, e1]
  unfold ruleInternal
  obtain ⟨t, l, et, ht⟩ := body_head w.init w.last r
  rw [bind_ok (selectorList_run env (n + 1) w.selectors hw.1 w.beforeBlock .lCurly (.inl rfl) p _ hp d a), bind_ok (expect_run _ _ _ _ _), et,
    bind_ok (ws_ok w.inBlock _ _ t ht _ _), ← et]
  have hb := blockInner_run env n w.init w.last ((ws w.inBlock).reverse ++
      .lCurly :: ((ws w.beforeBlock).reverse ++ (w.selectors.toks.reverse ++ p))) r (d + 1) a
      (fun x hx => ⟨hw.2 x hx, hn x hx, hd x hx⟩)
  have hb' : recurse ((Rec.at env (n + 1)).block .style) _ = .ok _ _ := recurse_run hd' hb
  rw [bind_ok hb', bind_ok (expect_run _ _ _ _ _)]
  rfl

theorem rule_run (env : Env) (w : WRule) (hw : w.Ok) (n : Nat) (hn : w.nestLe n) (p r : List Token) (hp : NB p) (d a : Nat)
    (hd : ∀ x ∈ w.decls, d + 1 + x.values.nest ≤ maxDepth) (hd' : d < maxDepth) :
    rule env (Rec.at env (n + 1)) ⟨p, w.core ++ r, d, a⟩ = .ok (some w.node) ⟨w.core.reverse ++ p, r, d, a⟩ := by
  unfold rule
  rw [bind_ok (attempt_ok (ruleInternal_run env w hw n hn p r hp d a hd hd'))]
  rfl

/-- what may begin a rule -/
def Starts (t : Token) : Prop :=
  match t with
  | .ident _ | .delim _ | .hash _ | .colon | .lBracket => True
  | _ => False

theorem core_head (w : WRule) (hw : w.Ok) : ∃ t l, w.core = t :: l ∧ Starts t := by
  have h := hw.1.1.1
  unfold WRule.core WSelectors.toks WSelector.toks
  cases e : w.selectors.first.first with
  | nil => exact absurd e h
  | cons x c => cases x <;> exact ⟨_, _, rfl, trivial⟩

theorem sheetRound_rule {env : Env} {k : Rec} {acc : List Node} {p r : List Token} {t : Token} {d a : Nat} {o : Option Node} {s' : PS}
    (ht : Starts t) (h : rule env k ⟨p, t :: r, d, a⟩ = .ok o s') :
    sheetRound env k acc ⟨p, t :: r, d, a⟩ = .ok (.inl (acc ++ o.toList)) s' := by
  unfold sheetRound
  rw [bind_ok (atEof_run _ _ _ _ _), if_neg (by cases t <;> simp_all [Starts]), bind_ok (consume_run _ _ _ _ _)]
  cases t with
  | ident _ | delim _ | hash _ | colon | lBracket =>
    simp only
    rw [bind_ok (reconsume_run _ _ _ _ _), bind_ok h]
    rfl
  | _ => exact ht.elim

theorem core_nb (w : WRule) (p : List Token) : NB (w.core.reverse ++ p) := by
  simp [NB, WRule.core]

theorem sheet_runs (env : Env) (n : Nat) : ∀ (l : List WRule), (∀ w ∈ l, w.Ok ∧ w.nestLe n ∧ w.nestLe 63) →
    ∀ (acc : List Node) (p : List Token), NB p → ∀ a,
    Runs (sheetRound env (Rec.at env (n + 1))) acc ⟨p, sheetToks l, 0, a⟩ (acc ++ l.map WRule.node)
      ⟨(sheetToks l).reverse ++ p, [], 0, a⟩
  | [], _, acc, p, _, a => by
    refine .stop ?_
    simp only [List.map_nil, List.append_nil]
    rfl
  | w :: l, h, acc, p, hp, a => by
    obtain ⟨h1, h2, h3⟩ := h w (by simp)
    have e0 : sheetToks (w :: l) = w.core ++ (ws w.after ++ sheetToks l) := by
      simp only [sheetToks, List.flatMap_cons, WRule.toks_core]
      simp
    rw [e0]
    obtain ⟨t, q, et, ht⟩ := core_head w h1
    have hr := rule_run env w h1 n h2 p (ws w.after ++ sheetToks l) hp 0 a
      (fun x hx => by have := h3 x hx; unfold maxDepth; omega) (by decide)
    rw [et] at hr ⊢
    refine .step (sheetRound_rule ht hr) ?_
    rw [← et]
    have ih := sheet_runs env n l (fun x hx => h x (by simp [hx])) (acc ++ [w.node])
      ((ws w.after).reverse ++ (w.core.reverse ++ p)) (by cases w.after <;> simp [NB, ws, WRule.core]) a
    have e1 : acc ++ [w.node] ++ l.map WRule.node = acc ++ (w :: l).map WRule.node := by simp
    have e2 : (sheetToks l).reverse ++ ((ws w.after).reverse ++ (w.core.reverse ++ p)) =
        (w.core ++ (ws w.after ++ sheetToks l)).reverse ++ p := by simp
    rw [e1, e2] at ih
    cases hw : w.after with
    | false => rw [hw] at ih; exact ih
    | true => rw [hw] at ih; exact .step rfl ih

theorem parseTree_written (env : Env) (l : List WRule) (hl : l ≠ []) (n : Nat) (h : ∀ w ∈ l, w.Ok ∧ w.nestLe n ∧ w.nestLe 63) :
    ∃ s, parseTree env (n + 1) (sheetToks l) = .ok (some (.styleSheet (l.map WRule.node))) s := by
  have hr := sheet_runs env n l h [] [] (by simp [NB]) 0
  have := hr.forever (good_forever (fun _ => 0) (fun _ => by omega) (round_sheetRound (good_at env (n + 1))) _)
  refine ⟨⟨(sheetToks l).reverse ++ [], [], 0, 0⟩, ?_⟩
  unfold parseTree sheet PS.new
  rw [bind_ok this, if_neg (by simpa using hl)]
  rfl

/-! ## from the tree to the rules -/

theorem addParts_simples (num : Str → Str) (r : List Node) : ∀ (c : WCompound) (g : List (List Part)) (x : List Part),
    addParts num (g ++ [x]) (WCompound.nodes c ++ r) = addParts num (g ++ [x ++ WCompound.parts c]) r
  | [], g, x => by simp [WCompound.nodes, WCompound.parts]
  | w :: c, g, x => by
    have ih := addParts_simples num r c g (x ++ [.simple w.simple])
    have hp := w.partOf num
    have : addParts num (g ++ [x]) (w.node :: (WCompound.nodes c ++ r)) =
        (partOf num w.node).bind fun p => addParts num ((g ++ [x]).dropLast ++ [(g ++ [x]).getLast?.getD [] ++ [p]]) (WCompound.nodes c ++ r) := by
      cases w <;> rfl
    show addParts num (g ++ [x]) (w.node :: (WCompound.nodes c ++ r)) = _
    rw [this, hp]
    simpa [WCompound.parts] using ih

theorem addParts_rest (num : Str → Str) (r : List Node) : ∀ (l : List (WComb × WCompound)) (g : List (List Part)) (x : List Part),
    addParts num (g ++ [x]) (restNodes l ++ r) =
      addParts num (g ++ [x ++ l.flatMap fun y => .comb y.1.comb :: WCompound.parts y.2]) r
  | [], g, x => by simp [restNodes]
  | (j, c) :: l, g, x => by
    have e : restNodes ((j, c) :: l) ++ r = j.node :: (WCompound.nodes c ++ (restNodes l ++ r)) := by simp [restNodes]
    have : ∀ R, addParts num (g ++ [x]) (j.node :: R) = addParts num (g ++ [x ++ [.comb j.comb]]) R := by
      intro R
      cases j <;> simp [WComb.node, addParts, partOf, combOf, WComb.comb]
    rw [e, this, addParts_simples, addParts_rest num r l]
    simp

theorem addParts_selector (num : Str → Str) (r : List Node) (w : WSelector) (g : List (List Part)) (x : List Part) :
    addParts num (g ++ [x]) (w.nodes ++ r) = addParts num (g ++ [x ++ w.parts]) r := by
  unfold WSelector.nodes WSelector.parts
  rw [List.append_assoc, addParts_simples, addParts_rest]
  simp

theorem addParts_more (num : Str → Str) : ∀ (l : List (Bool × WSelector)) (g : List (List Part)) (x : List Part),
    addParts num (g ++ [x]) (moreNodes l) = some (g ++ [x] ++ l.map fun y => y.2.parts)
  | [], g, x => by simp [moreNodes, addParts]
  | (b, w) :: l, g, x => by
    have e : moreNodes ((b, w) :: l) = .comma :: (w.nodes ++ moreNodes l) := by simp [moreNodes]
    rw [e]
    show addParts num (g ++ [x] ++ [[]]) (w.nodes ++ moreNodes l) = _
    rw [addParts_selector, addParts_more num l]
    simp

theorem addSelectors_written (num : Str → Str) (l : WSelectors) : addSelectors num [[]] [.selector l.nodes] = some l.groups := by
  have h : addParts num [[]] l.nodes = some l.groups := by
    have := addParts_selector num (moreNodes l.more) l.first [] []
    simp only [List.nil_append] at this
    unfold WSelectors.nodes WSelectors.groups
    rw [this]
    have h2 := addParts_more num l.more [] l.first.parts
    simpa using h2
  simp [addSelectors, h]

theorem declOf_written (zero : Str → Bool) (w : WDecl) (hw : w.values ≠ .nil) : declOf zero w.node = some (w.decl zero) := by
  unfold WDecl.node declOf
  simp only
  rw [WValues.filterMap]
  unfold WDecl.decl
  cases h : w.values with
  | nil => exact absurd h hw
  | cons v b r =>
    simp only [WValues.values]
    cases h2 : r.values zero with
    | nil => rfl
    | cons y ys => rfl

theorem decls_written (zero : Str → Bool) : ∀ (l : List WDecl), (∀ w ∈ l, w.values ≠ .nil) →
    (l.map WDecl.node).filterMap (declOf zero) = l.map (WDecl.decl zero)
  | [], _ => rfl
  | w :: l, h => by
    simp only [List.map_cons, List.filterMap_cons, declOf_written zero w (h w (by simp))]
    rw [decls_written zero l fun x hx => h x (by simp [hx])]

theorem collectRule_written (num : Str → Str) (zero : Str → Bool) (w : WRule) (hw : w.Ok) :
    collectRule num zero w.node = some (some (w.rule zero)) := by
  unfold WRule.node collectRule
  simp only
  rw [addSelectors_written, decls_written zero _ fun x hx => (hw.2 x hx).2.1]
  rfl

theorem collectRules_written (num : Str → Str) (zero : Str → Bool) : ∀ (l : List WRule), (∀ w ∈ l, w.Ok) →
    collectRules num zero (l.map WRule.node) = some (l.map (WRule.rule zero))
  | [], _ => by simp [collectRules]
  | w :: l, h => by
    have h1 : collectNode num zero w.node = some [w.rule zero] := by
      have := collectRule_written num zero w (h w (by simp))
      unfold WRule.node at this ⊢
      unfold collectNode
      rw [this]
      rfl
    simp only [List.map_cons, collectRules, h1, collectRules_written num zero l fun x hx => h x (by simp [hx])]
    rfl

theorem parse_written (env : Env) (zero : Str → Bool) (l : List WRule) (hl : l ≠ []) (n : Nat)
    (h : ∀ w ∈ l, w.Ok ∧ w.nestLe n ∧ w.nestLe 63) :
    parse env zero (n + 1) (sheetToks l) = .rules (l.map (WRule.rule zero)) := by
  obtain ⟨s, hs⟩ := parseTree_written env l hl n h
  unfold parse
  rw [hs]
  simp only
  rw [collectRules_written env.num zero l fun w hw => (h w hw).1]

end Verif.CssParse
