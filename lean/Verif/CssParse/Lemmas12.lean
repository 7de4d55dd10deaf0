import Verif.CssParse.Lemmas8
import Verif.CssParse.Spec2

/-! # C112: what is wrong is left out, and nothing else -/

namespace Verif.CssParse

open Verif.CssTok (Token)
open Verif.Select (Part Simple Comb Matcher AttrSel)

/-! ## Declarations -/

theorem declEnd_plain {t : Token} (ht : Close t) (r : List Token) : ∀ (l : List Token), (∀ u ∈ l, Plain u) → ∀ p,
    declEnd p (l ++ t :: r) = (l.reverse ++ p, t :: r)
  | [], _, p => by rcases ht with rfl | rfl <;> rfl
  | u :: l, h, p => by
    have ih := declEnd_plain ht r l (fun v hv => h v (by simp [hv])) (u :: p)
    have hu := h u (by simp)
    have e : declEnd p (u :: (l ++ t :: r)) = declEnd (u :: p) (l ++ t :: r) := by
      cases u <;> first
        | rfl
        | exact hu.elim
    show declEnd p (u :: (l ++ t :: r)) = _
    rw [e, ih]
    simp

theorem untilDeclEnd_run {t : Token} (ht : Close t) (r l : List Token) (h : ∀ u ∈ l, Plain u) (p : List Token) (d a : Nat) :
    untilDeclEnd ⟨p, l ++ t :: r, d, a⟩ = .ok () ⟨l.reverse ++ p, t :: r, d, a⟩ := by
  unfold untilDeclEnd
  simp only [declEnd_plain ht r l h p]

theorem scan_plain (r : List Token) : ∀ (l : List Token), (∀ u ∈ l, Plain u) → scanNested 0 (l ++ r) = scanNested 0 r
  | [], _ => rfl
  | u :: l, h => by
    have ih := scan_plain r l (fun v hv => h v (by simp [hv]))
    have hu := h u (by simp)
    have e : scanNested 0 (u :: (l ++ r)) = scanNested 0 (l ++ r) := by
      cases u <;> first
        | rfl
        | exact hu.elim
    show scanNested 0 (u :: (l ++ r)) = _
    rw [e, ih]

theorem plain_ws (b : Bool) : ∀ u ∈ ws b, Plain u := by cases b <;> simp [ws, Plain]

theorem WWrongDecl.plain (w : WWrongDecl) (hw : w.Ok) : ∀ u ∈ w.toks, Plain u := by
  cases w with
  | noColon p b t more =>
    intro u hu
    simp only [WWrongDecl.toks, List.mem_append, List.mem_singleton] at hu
    rcases hu with ((rfl | h) | rfl) | h
    · trivial
    · exact plain_ws b u h
    · exact hw.1
    · exact hw.2.2.2 u h
  | noValue p b c =>
    intro u hu
    simp only [WWrongDecl.toks, List.mem_append, List.mem_singleton] at hu
    rcases hu with ((rfl | h) | rfl) | h
    · trivial
    · exact plain_ws b u h
    · trivial
    · exact plain_ws c u h

theorem values_none (env : Env) (n : Nat) {t : Token} (ht : Close t) (p r : List Token) (d a : Nat) :
    values env (Rec.at env n) ⟨p, t :: r, d, a⟩ = .ok [] ⟨p, t :: r, d, a⟩ := by
  have hr : Runs (fun acc : List Node => (do
      if (← atEof) then return .inr acc
      if (← consume) ≠ .whitespace then reconsume
      match ← value env (Rec.at env n) with
      | none => return .inr acc
      | some n => return .inl (acc ++ [n]) : P (List Node ⊕ List Node))) [] ⟨p, t :: r, d, a⟩ [] ⟨p, t :: r, d, a⟩ := by
    refine .stop ?_
    rcases ht with rfl | rfl <;> rfl
  exact hr.forever (good_values (good_at env n))

/-- such a declaration is an error, after which the rest of it is still to be skipped -/
theorem declarationInternal_wrong (env : Env) (w : WWrongDecl) (hw : w.Ok) (n : Nat) {t : Token} (ht : Close t) (p r : List Token)
    (d a : Nat) : ∃ l l', w.toks = l ++ l' ∧
    declarationInternal env (Rec.at env n) ⟨p, w.toks ++ t :: r, d, a⟩ = .err ⟨l.reverse ++ p, l' ++ t :: r, d, a⟩ := by
  cases w with
  | noColon q b u more =>
    obtain ⟨_, h2, h3, _⟩ := hw
    refine ⟨[.ident q] ++ ws b ++ [u], more, by simp [WWrongDecl.toks], ?_⟩
    have e0 : (WWrongDecl.noColon q b u more).toks ++ t :: r = .ident q :: (ws b ++ u :: (more ++ t :: r)) := by
      simp [WWrongDecl.toks]
    rw [e0]
    have e1 : consumeAnyIdent ⟨p, .ident q :: (ws b ++ u :: (more ++ t :: r)), d, a⟩ =
      .ok q ⟨.ident q :: p, ws b ++ u :: (more ++ t :: r), d, a⟩ := rfl
    have e2 : ∀ p', expect .colon ⟨p', u :: (more ++ t :: r), d, a⟩ = .err ⟨u :: p', more ++ t :: r, d, a⟩ := by
      intro p'
      unfold expect
      rw [bind_ok (consume_run _ _ _ _ _), if_neg h2]
      rfl
    unfold declarationInternal
    rw [bind_ok e1]
    simp only
    rw [bind_ok (ws_ok b _ _ u h3 _ _), bind_err (e2 _)]
    simp
  | noValue q b c =>
    refine ⟨(WWrongDecl.noValue q b c).toks, [], by simp, ?_⟩
    have hw' : "--".toList.isPrefixOf q = false := hw
    have hc : t ≠ .whitespace := by rcases ht with rfl | rfl <;> simp
    have e0 : (WWrongDecl.noValue q b c).toks ++ t :: r = .ident q :: (ws b ++ .colon :: (ws c ++ t :: r)) := by
      simp [WWrongDecl.toks]
    rw [e0]
    have e1 : consumeAnyIdent ⟨p, .ident q :: (ws b ++ .colon :: (ws c ++ t :: r)), d, a⟩ =
      .ok q ⟨.ident q :: p, ws b ++ .colon :: (ws c ++ t :: r), d, a⟩ := rfl
    unfold declarationInternal
    rw [bind_ok e1]
    simp only [hw', Bool.not_false, if_true, Bool.false_eq_true, if_false]
    rw [bind_ok (ws_ok b _ _ .colon (by simp) _ _), bind_ok (expect_run _ _ _ _ _), bind_ok (ws_ok c _ _ t hc _ _),
      bind_ok (ws_none _ _ _ hc _ _), bind_ok (values_none env n ht _ _ _ _), if_pos (by simp)]
    simp [fail, WWrongDecl.toks]

theorem blockRound_wrong (env : Env) (hi : env.ignore = true) (w : WWrongDecl) (hw : w.Ok) (n : Nat) {t : Token} (ht : Close t)
    (p r : List Token) (d a : Nat) (ch : List Node) :
    blockRound env (Rec.at env n) .style (ch, true) ⟨p, w.toks ++ t :: r, d, a⟩ =
      .ok (.inl (ch, false)) ⟨w.toks.reverse ++ p, t :: r, d, a⟩ := by
  obtain ⟨l, l', e, h⟩ := declarationInternal_wrong env w hw n ht p r d a
  have hpl := w.plain hw
  have hs : startsNested ⟨p, w.toks ++ t :: r, d, a⟩ = .ok false ⟨p, w.toks ++ t :: r, d, a⟩ := by
    have h1 : scanNested 0 (t :: r) = (false, false) := by rcases ht with rfl | rfl <;> rfl
    unfold startsNested
    simp only [scan_plain (t :: r) _ hpl, h1]
    rfl
  have hdecl : declaration env (Rec.at env n) ⟨p, w.toks ++ t :: r, d, a⟩ = .ok none ⟨w.toks.reverse ++ p, t :: r, d, a⟩ := by
    unfold declaration
    rw [bind_ok (attempt_err h)]
    simp only
    rw [if_pos hi, bind_ok (untilDeclEnd_run ht r l' (fun u hu => hpl u (by rw [e]; simp [hu])) _ d a), e]
    simp [pure_run]
  obtain ⟨q, m, e0⟩ : ∃ q m, w.toks ++ t :: r = .ident q :: m := by
    cases w with
    | noColon q b u more => exact ⟨q, _, rfl⟩
    | noValue q b c => exact ⟨q, _, rfl⟩
  rw [e0] at hs hdecl ⊢
  unfold blockRound
  rw [bind_ok (atEof_run _ _ _ _ _), if_neg (by simp), bind_ok (consume_run _ _ _ _ _)]
  simp only
  have hi : blockItem env (Rec.at env n) .style ch true ⟨.ident q :: p, m, d, a⟩ =
      .ok (ch, false) ⟨w.toks.reverse ++ p, t :: r, d, a⟩ := by
    unfold blockItem
    simp only [Bool.not_true, Bool.false_eq_true, if_false]
    rw [bind_ok (reconsume_run _ _ _ _ _), bind_ok hs, if_neg (by simp), bind_ok hdecl]
    simp [pure_run]
  rw [bind_ok hi]
  rfl

/-! ## Blocks -/

def WEntry.node? : WEntry → Option Node
  | .decl d => some d.node
  | .wrong _ => none

def WEntry.Fits (n d : Nat) (e : WEntry) : Prop := e.Ok ∧ e.nestLe n ∧ e.nestLe (maxDepth - d)

theorem blockRound_entry (env : Env) (hi : env.ignore = true) (e : WEntry) (n : Nat) (d : Nat) (hd : d ≤ maxDepth) (he : e.Fits n d)
    {t : Token} (ht : Close t) (p r : List Token) (a : Nat) (ch : List Node) :
    blockRound env (Rec.at env n) .style (ch, true) ⟨p, e.toks ++ t :: r, d, a⟩ =
      .ok (.inl (ch ++ e.node?.toList, false)) ⟨e.toks.reverse ++ p, t :: r, d, a⟩ := by
  obtain ⟨h1, h2, h3⟩ := he
  cases e with
  | decl w => exact blockRound_decl env w h1 n h2 ht p r d a (by have : w.values.nest ≤ maxDepth - d := h3; omega) ch
  | wrong w =>
    have := blockRound_wrong env hi w h1 n ht p r d a ch
    simpa only [WEntry.node?, WEntry.toks, Option.toList, List.append_nil] using this

/-- the tokens in a block after the brace and its white space -/
def entryToks (init : List (WEntry × Bool)) (last : Option WEntry) : List Token :=
  (init.flatMap fun x => x.1.toks ++ [.semicolon] ++ ws x.2) ++ last.toList.flatMap WEntry.toks

theorem entries_runs (env : Env) (hi : env.ignore = true) (n : Nat) (last : Option WEntry) (r : List Token) (d a : Nat)
    (hd : d ≤ maxDepth) : ∀ (init : List (WEntry × Bool)),
    (∀ e ∈ init.map Prod.fst ++ last.toList, e.Fits n d) →
    ∀ (ch : List Node) (p : List Token),
    Runs (blockRound env (Rec.at env n) .style) (ch, true) ⟨p, entryToks init last ++ .rCurly :: r, d, a⟩
      (ch ++ (init.map Prod.fst ++ last.toList).filterMap WEntry.node?) ⟨(entryToks init last).reverse ++ p, .rCurly :: r, d, a⟩
  | [], h, ch, p => by
    cases last with
    | none =>
      refine .stop ?_
      simp only [entryToks, List.flatMap_nil, Option.toList, List.nil_append, List.map_nil, List.append_nil, List.reverse_nil,
        List.filterMap_nil]
      rfl
    | some w =>
      have h1 := h w (by simp)
      refine .step (y := (ch ++ w.node?.toList, false)) (s1 := ⟨w.toks.reverse ++ p, .rCurly :: r, d, a⟩) ?_ (.stop ?_)
      · have := blockRound_entry env hi w n d hd h1 (.inr rfl) p r a ch
        simpa [entryToks] using this
      · have e1 : List.filterMap WEntry.node? [w] = w.node?.toList := by cases h : w.node? <;> simp [h]
        simp only [entryToks, List.flatMap_nil, Option.toList, List.nil_append, List.map_nil, List.flatMap_cons,
          List.append_nil]
        simp only [Option.toList] at e1
        rw [e1]
        rfl
  | (w, b) :: l, h, ch, p => by
    have h1 := h w (by simp)
    have ih := entries_runs env hi n last r d a hd l (fun v hv => h v (by simp at hv ⊢; tauto)) (ch ++ w.node?.toList)
      ((ws b).reverse ++ .semicolon :: (w.toks.reverse ++ p))
    have e0 : entryToks ((w, b) :: l) last ++ .rCurly :: r =
      w.toks ++ .semicolon :: (ws b ++ (entryToks l last ++ .rCurly :: r)) := by
      simp [entryToks]
    have e1 : (entryToks ((w, b) :: l) last).reverse ++ p =
      (entryToks l last).reverse ++ ((ws b).reverse ++ .semicolon :: (w.toks.reverse ++ p)) := by
      simp [entryToks]
    have e2 : ch ++ (((w, b) :: l).map Prod.fst ++ last.toList).filterMap WEntry.node? =
      ch ++ w.node?.toList ++ (l.map Prod.fst ++ last.toList).filterMap WEntry.node? := by
      cases h : w.node? <;> simp [h]
    rw [e0, e1, e2]
    refine .step (blockRound_entry env hi w n d hd h1 (.inl rfl) p _ a ch) ?_
    refine .step (y := (ch ++ w.node?.toList, true)) (s1 := ⟨.semicolon :: (w.toks.reverse ++ p), _, d, a⟩) rfl ?_
    exact runs_ws env _ ih

theorem entryBlock_run (env : Env) (hi : env.ignore = true) (n : Nat) (init : List (WEntry × Bool)) (last : Option WEntry)
    (p r : List Token) (d a : Nat) (hd : d ≤ maxDepth) (h : ∀ e ∈ init.map Prod.fst ++ last.toList, e.Fits n d) :
    blockInner env (Rec.at env n) .style ⟨p, entryToks init last ++ .rCurly :: r, d, a⟩ =
      .ok (.block ((init.map Prod.fst ++ last.toList).filterMap WEntry.node?))
        ⟨(entryToks init last).reverse ++ p, .rCurly :: r, d, a⟩ := by
  unfold blockInner
  have hg : Good (forever (blockRound env (Rec.at env n) .style) ([], true)) :=
    good_forever (fun y => weight y.2) (fun y => by unfold weight; split <;> omega) (round_blockRound (good_at env n) .style) _
  rw [bind_ok ((entries_runs env hi n last r d a hd init h [] p).forever hg)]
  rfl

/-! ## Rules -/

def WRule2.node (w : WRule2) : Node :=
  .rule (some (.selectorList [.selector w.selectors.nodes])) (some (.block (w.entries.filterMap WEntry.node?)))

def WRule2.core (w : WRule2) : List Token :=
  w.selectors.toks ++ (ws w.beforeBlock ++ .lCurly :: (ws w.inBlock ++ (entryToks w.init w.last ++ [.rCurly])))

theorem entry_head (w : WEntry) : ∃ q l, w.toks = .ident q :: l := by
  cases w with
  | decl w => exact ⟨_, _, rfl⟩
  | wrong w => cases w <;> exact ⟨_, _, rfl⟩

theorem entries_head (init : List (WEntry × Bool)) (last : Option WEntry) (r : List Token) :
    ∃ t l, entryToks init last ++ .rCurly :: r = t :: l ∧ t ≠ .whitespace := by
  cases init with
  | cons x init =>
    obtain ⟨q, l, e⟩ := entry_head x.1
    exact ⟨.ident q, _, by simp only [entryToks, List.flatMap_cons, e, List.cons_append]; rfl, by simp⟩
  | nil => cases last with
    | none => exact ⟨.rCurly, _, rfl, by simp⟩
    | some w =>
      obtain ⟨q, l, e⟩ := entry_head w
      exact ⟨.ident q, _, by
        simp only [entryToks, List.flatMap_nil, Option.toList, List.flatMap_cons, List.nil_append, e, List.cons_append]; rfl,
        by simp⟩

theorem rule2_run (env : Env) (hi : env.ignore = true) (w : WRule2) (hs : w.selectors.Ok) (n : Nat) (p r : List Token) (hp : NB p) (a : Nat)
    (h : ∀ e ∈ w.entries, e.Fits n 1) :
    rule env (Rec.at env (n + 1)) ⟨p, w.core ++ r, 0, a⟩ = .ok (some w.node) ⟨w.core.reverse ++ p, r, 0, a⟩ := by
  have hr : ruleInternal env (Rec.at env (n + 1)) ⟨p, w.core ++ r, 0, a⟩ = .ok w.node ⟨w.core.reverse ++ p, r, 0, a⟩ := by
    have e0 : w.core ++ r = w.selectors.toks ++ (ws w.beforeBlock ++ .lCurly :: (ws w.inBlock ++ (entryToks w.init w.last ++ .rCurly :: r))) := by
      simp [WRule2.core]
    have e1 : w.core.reverse ++ p = .rCurly :: ((entryToks w.init w.last).reverse ++ ((ws w.inBlock).reverse ++
        .lCurly :: ((ws w.beforeBlock).reverse ++ (w.selectors.toks.reverse ++ p)))) := by
      simp [WRule2.core]
    rw [e0, e1]
    unfold ruleInternal
    obtain ⟨t, l, et, ht⟩ := entries_head w.init w.last r
    rw [bind_ok (selectorList_run env (n + 1) w.selectors hs w.beforeBlock .lCurly (.inl rfl) p _ hp 0 a),
      bind_ok (expect_run _ _ _ _ _), et, bind_ok (ws_ok w.inBlock _ _ t ht _ _), ← et]
    have hb := entryBlock_run env hi n w.init w.last ((ws w.inBlock).reverse ++
        .lCurly :: ((ws w.beforeBlock).reverse ++ (w.selectors.toks.reverse ++ p))) r 1 a (by decide) h
    have hb' : recurse ((Rec.at env (n + 1)).block .style) _ = .ok _ _ := recurse_run (d := 0) (by decide) hb
    rw [bind_ok hb', bind_ok (expect_run _ _ _ _ _)]
    rfl
  unfold rule
  rw [bind_ok (attempt_ok hr)]
  rfl

theorem ruleEnd_plain (r : List Token) : ∀ (l : List Token), (∀ u ∈ l, Plain u) → ∀ d p,
    ruleEnd d p (l ++ r) = ruleEnd d (l.reverse ++ p) r
  | [], _, _, _ => rfl
  | u :: l, h, d, p => by
    have ih := ruleEnd_plain r l (fun v hv => h v (by simp [hv])) d (u :: p)
    have hu := h u (by simp)
    have e : ruleEnd d p (u :: (l ++ r)) = ruleEnd d (u :: p) (l ++ r) := by
      cases u <;> first
        | rfl
        | exact hu.elim
    show ruleEnd d p (u :: (l ++ r)) = _
    rw [e, ih]
    simp

theorem ruleEnd_balanced {l : List Token} (h : Balanced l) : ∀ (d : Nat) (p r : List Token),
    ruleEnd (d + 1) p (l ++ r) = ruleEnd (d + 1) (l.reverse ++ p) r := by
  induction h with
  | nil => exact fun _ _ _ => rfl
  | @plain t l ht _ ih =>
    intro d p r
    have := ruleEnd_plain (l ++ r) [t] (by simpa using ht) (d + 1) p
    show ruleEnd (d + 1) p ([t] ++ (l ++ r)) = _
    rw [this, ih]
    simp
  | @semicolon l _ ih =>
    intro d p r
    show ruleEnd (d + 1) p (.semicolon :: (l ++ r)) = _
    have : ruleEnd (d + 1) p (.semicolon :: (l ++ r)) = ruleEnd (d + 1) (.semicolon :: p) (l ++ r) := by
      simp [ruleEnd]
    rw [this, ih]
    simp
  | @group o c a l hp _ _ ih1 ih2 =>
    intro d p r
    have e0 : o :: (a ++ c :: l) ++ r = o :: (a ++ c :: (l ++ r)) := by simp
    have e1 : ruleEnd (d + 1) p (o :: (a ++ c :: (l ++ r))) = ruleEnd (d + 1 + 1) (o :: p) (a ++ c :: (l ++ r)) := by
      cases o <;> first
        | rfl
        | (cases c <;> exact hp.elim)
    have e2 : ∀ p, ruleEnd (d + 1 + 1) p (c :: (l ++ r)) = ruleEnd (d + 1) (c :: p) (l ++ r) := by
      intro p
      cases o <;> cases c <;> first
        | exact hp.elim
        | rfl
    rw [e0, e1, ih1, e2, ih2]
    simp

/-- the tokens of such a rule up to its closing brace -/
def WWrongRule.core (w : WWrongRule) : List Token := w.before ++ .delim w.sign :: (w.more ++ .lCurly :: (w.body ++ [.rCurly]))

theorem wrongRule_err (env : Env) (w : WWrongRule) (hw : w.Ok) (n : Nat) (p r : List Token) (hp : NB p) (d a : Nat) :
    ruleInternal env (Rec.at env n) ⟨p, w.before ++ .delim w.sign :: r, d, a⟩ =
      .err ⟨.delim w.sign :: (w.before.reverse ++ p), r, d, a⟩ := by
  obtain ⟨h1, h2, _, _⟩ := hw
  have hh : Halt (.delim w.sign) := .inr ⟨w.sign, rfl, h2⟩
  have he : ∀ p', expect .lCurly ⟨p', .delim w.sign :: r, d, a⟩ = .err ⟨.delim w.sign :: p', r, d, a⟩ := by
    intro p'
    unfold expect
    rw [bind_ok (consume_run _ _ _ _ _), if_neg (by simp)]
    rfl
  unfold ruleInternal
  cases hb : w.selectors with
  | some x =>
    obtain ⟨s, b⟩ := x
    have e : w.before = s.toks ++ ws b := by unfold WWrongRule.before; rw [hb]
    rw [e, List.append_assoc, bind_ok (selectorList_run env n s (h1 _ hb) b _ hh p r hp d a), bind_err (he _)]
    simp
  | none =>
    have e : w.before = [] := by unfold WWrongRule.before; rw [hb]
    rw [e]
    have hs : selector env (Rec.at env n) ⟨p, .delim w.sign :: r, d, a⟩ = .ok (.selector []) ⟨p, .delim w.sign :: r, d, a⟩ := by
      unfold selector
      have hr : Runs (selectorRound env (Rec.at env n)) ⟨[], false, false⟩ ⟨p, .delim w.sign :: r, d, a⟩ []
        ⟨p, .delim w.sign :: r, d, a⟩ := .stop (hh.run env _ _ _ _ _ _)
      have hg := good_loop (good_selectorRound (env := env) (good_at env n)) (strict_selectorRound (env := env) (good_at env n))
        ⟨[], false, false⟩
      rw [bind_ok (hr.forever hg)]
      rfl
    have hl : selectorList env (Rec.at env n) ⟨p, .delim w.sign :: r, d, a⟩ =
        .ok (.selectorList [.selector []]) ⟨p, .delim w.sign :: r, d, a⟩ := by
      unfold selectorList
      rw [bind_ok (rounds_stop (b := [.selector []]) (s' := ⟨p, .delim w.sign :: r, d, a⟩) _)]
      · rfl
      · rw [bind_ok (atEof_run _ _ _ _ _), if_neg (by simp), bind_ok hs, bind_ok (consume_run _ _ _ _ _), if_pos (by simp),
          bind_ok (reconsume_run _ _ _ _ _)]
        rfl
    simp only [List.nil_append]
    rw [bind_ok hl, bind_err (he _)]
    simp

theorem wrongRule_run (env : Env) (hi : env.ignore = true) (w : WWrongRule) (hw : w.Ok) (n : Nat) (p r : List Token) (hp : NB p)
    (d a : Nat) : rule env (Rec.at env n) ⟨p, w.core ++ r, d, a⟩ = .ok none ⟨w.core.reverse ++ p, r, d, a⟩ := by
  have e0 : w.core ++ r = w.before ++ .delim w.sign :: (w.more ++ .lCurly :: (w.body ++ .rCurly :: r)) := by simp [WWrongRule.core]
  have he := wrongRule_err env w hw n p (w.more ++ .lCurly :: (w.body ++ .rCurly :: r)) hp d a
  have hu : untilRuleEnd ⟨.delim w.sign :: (w.before.reverse ++ p), w.more ++ .lCurly :: (w.body ++ .rCurly :: r), d, a⟩ =
      .ok () ⟨w.core.reverse ++ p, r, d, a⟩ := by
    have h1 := ruleEnd_plain (.lCurly :: (w.body ++ .rCurly :: r)) w.more hw.2.2.1 0 (.delim w.sign :: (w.before.reverse ++ p))
    have h2 : ∀ p', ruleEnd 0 p' (.lCurly :: (w.body ++ .rCurly :: r)) = ruleEnd 1 (.lCurly :: p') (w.body ++ .rCurly :: r) :=
      fun _ => rfl
    have h3 := fun p' => ruleEnd_balanced hw.2.2.2 0 p' (.rCurly :: r)
    have h4 : ∀ p', ruleEnd 1 p' (.rCurly :: r) = (.rCurly :: p', r) := fun p' => by simp [ruleEnd]
    unfold untilRuleEnd
    simp only
    rw [h1, h2, h3, h4]
    simp [WWrongRule.core]
  unfold rule
  rw [e0, bind_ok (attempt_err he)]
  simp only
  rw [if_pos hi, bind_ok hu]
  rfl

/-! ## Stylesheets -/

def WItem.node? : WItem → Option Node
  | .rule r => some r.node
  | .wrong _ => none

def WItem.core : WItem → List Token
  | .rule r => r.core
  | .wrong r => r.core

def WItem.after : WItem → Bool
  | .rule r => r.after
  | .wrong r => r.after

theorem WItem.toks_core (w : WItem) : w.toks = w.core ++ ws w.after := by
  cases w with
  | rule w => simp [WItem.toks, WItem.core, WItem.after, WRule2.toks, WRule2.core, entryToks]
  | wrong w => simp [WItem.toks, WItem.core, WItem.after, WWrongRule.toks, WWrongRule.core]

theorem selectors_head (s : WSelectors) (h : s.Ok) (r : List Token) : ∃ t l, s.toks ++ r = t :: l ∧ Starts t := by
  have h := h.1.1
  unfold WSelectors.toks WSelector.toks
  cases e : s.first.first with
  | nil => exact absurd e h
  | cons x c => cases x <;> exact ⟨_, _, rfl, trivial⟩

theorem item_head (w : WItem) (hw : w.Ok) : ∃ t l, w.core = t :: l ∧ Starts t := by
  cases w with
  | rule w => exact selectors_head w.selectors hw.1 _
  | wrong w =>
    have hw : w.Ok := hw
    cases hb : w.selectors with
    | some x =>
      obtain ⟨t, l, e, h⟩ := selectors_head x.1 (hw.1 x hb) (ws x.2 ++ .delim w.sign :: (w.more ++ .lCurly :: (w.body ++ [.rCurly])))
      refine ⟨t, l, ?_, h⟩
      rw [← e]
      simp [WItem.core, WWrongRule.core, WWrongRule.before, hb]
    | none =>
      refine ⟨.delim w.sign, w.more ++ .lCurly :: (w.body ++ [.rCurly]), ?_, trivial⟩
      simp only [WItem.core, WWrongRule.core, WWrongRule.before, hb]
      rfl

theorem item_nb (w : WItem) (p : List Token) : NB (w.core.reverse ++ p) := by
  cases w with
  | rule w => simp [NB, WItem.core, WRule2.core]
  | wrong w => simp [NB, WItem.core, WWrongRule.core]

theorem item_run (env : Env) (hi : env.ignore = true) (w : WItem) (n : Nat) (hw : w.Ok) (hn : w.nestLe n) (hn' : w.nestLe 63)
    (p r : List Token) (hp : NB p) (a : Nat) :
    rule env (Rec.at env (n + 1)) ⟨p, w.core ++ r, 0, a⟩ = .ok w.node? ⟨w.core.reverse ++ p, r, 0, a⟩ := by
  cases w with
  | rule w => exact rule2_run env hi w hw.1 n p r hp a fun e he => ⟨hw.2 e he, hn e he, hn' e he⟩
  | wrong w => exact wrongRule_run env hi w hw (n + 1) p r hp 0 a

theorem items_runs (env : Env) (hi : env.ignore = true) (n : Nat) : ∀ (l : List WItem), (∀ w ∈ l, w.Ok ∧ w.nestLe n ∧ w.nestLe 63) →
    ∀ (acc : List Node) (p : List Token), NB p → ∀ a,
    Runs (sheetRound env (Rec.at env (n + 1))) acc ⟨p, itemsToks l, 0, a⟩ (acc ++ l.filterMap WItem.node?)
      ⟨(itemsToks l).reverse ++ p, [], 0, a⟩
  | [], _, acc, p, _, a => by
    refine .stop ?_
    simp only [List.filterMap_nil, List.append_nil]
    rfl
  | w :: l, h, acc, p, hp, a => by
    obtain ⟨h1, h2, h3⟩ := h w (by simp)
    have e0 : itemsToks (w :: l) = w.core ++ (ws w.after ++ itemsToks l) := by
      simp only [itemsToks, List.flatMap_cons, WItem.toks_core]
      simp
    rw [e0]
    obtain ⟨t, q, et, ht⟩ := item_head w h1
    have hr := item_run env hi w n h1 h2 h3 p (ws w.after ++ itemsToks l) hp a
    rw [et] at hr ⊢
    refine .step (sheetRound_rule ht hr) ?_
    rw [← et]
    have ih := items_runs env hi n l (fun x hx => h x (by simp [hx])) (acc ++ w.node?.toList)
      ((ws w.after).reverse ++ (w.core.reverse ++ p)) (by
        cases w.after
        · exact item_nb w p
        · simp [NB, ws]) a
    have e1 : acc ++ w.node?.toList ++ l.filterMap WItem.node? = acc ++ (w :: l).filterMap WItem.node? := by
      cases h : w.node? <;> simp [h]
    have e2 : (itemsToks l).reverse ++ ((ws w.after).reverse ++ (w.core.reverse ++ p)) =
        (w.core ++ (ws w.after ++ itemsToks l)).reverse ++ p := by simp
    rw [e1, e2] at ih
    cases hw : w.after with
    | false => rw [hw] at ih; exact ih
    | true => rw [hw] at ih; exact .step rfl ih

theorem entries_decls (zero : Str → Bool) : ∀ (l : List WEntry), (∀ e ∈ l, e.Ok) →
    (l.filterMap WEntry.node?).filterMap (declOf zero) = (l.filterMap WEntry.decl?).map (WDecl.decl zero)
  | [], _ => rfl
  | .wrong w :: l, h => by
    exact entries_decls zero l fun x hx => h x (by simp [hx])
  | .decl w :: l, h => by
    have := entries_decls zero l fun x hx => h x (by simp [hx])
    have hw : w.Ok := h (.decl w) (by simp)
    simpa [WEntry.node?, WEntry.decl?, declOf_written zero w hw.2.1] using this

theorem collectRules_items (num : Str → Str) (zero : Str → Bool) : ∀ (l : List WItem), (∀ w ∈ l, w.Ok) →
    collectRules num zero (l.filterMap WItem.node?) = some ((l.filterMap WItem.rule?).map (WRule2.rule zero))
  | [], _ => by simp [collectRules]
  | .wrong w :: l, h => by
    exact collectRules_items num zero l fun x hx => h x (by simp [hx])
  | .rule w :: l, h => by
    have hw := h (.rule w) (by simp)
    have h1 : collectNode num zero w.node = some [w.rule zero] := by
      have : collectRule num zero w.node = some (some (w.rule zero)) := by
        unfold WRule2.node collectRule
        simp only
        rw [addSelectors_written, entries_decls zero _ hw.2]
        rfl
      unfold WRule2.node at this ⊢
      unfold collectNode
      rw [this]
      rfl
    have ih := collectRules_items num zero l fun x hx => h x (by simp [hx])
    have e1 : (WItem.rule w :: l).filterMap WItem.node? = w.node :: l.filterMap WItem.node? := by simp [WItem.node?]
    have e2 : (WItem.rule w :: l).filterMap WItem.rule? = w :: l.filterMap WItem.rule? := by simp [WItem.rule?]
    rw [e1, e2]
    simp only [List.map_cons, collectRules, h1, ih]
    rfl

theorem parse_items (env : Env) (hi : env.ignore = true) (zero : Str → Bool) (l : List WItem) (hl : l.filterMap WItem.rule? ≠ [])
    (n : Nat) (h : ∀ w ∈ l, w.Ok ∧ w.nestLe n ∧ w.nestLe 63) :
    parse env zero (n + 1) (itemsToks l) = .rules ((l.filterMap WItem.rule?).map (WRule2.rule zero)) := by
  have hr := items_runs env hi n l h [] [] (by simp [NB]) 0
  have hf := hr.forever (good_forever (fun _ => 0) (fun _ => by omega) (round_sheetRound (good_at env (n + 1))) _)
  have hne : l.filterMap WItem.node? ≠ [] := by
    intro e
    apply hl
    rw [List.filterMap_eq_nil_iff] at e ⊢
    intro a ha
    have := e a ha
    cases a <;> simp_all [WItem.node?, WItem.rule?]
  have ht : parseTree env (n + 1) (itemsToks l) =
      .ok (some (.styleSheet (l.filterMap WItem.node?))) ⟨(itemsToks l).reverse ++ [], [], 0, 0⟩ := by
    unfold parseTree sheet PS.new
    rw [bind_ok hf, if_neg (by simpa using hne)]
    rfl
  unfold parse
  rw [ht]
  simp only
  rw [collectRules_items env.num zero l fun w hw => (h w hw).1]

/-! ## With errors not ignored -/

/-- the rounds of a loop until one that is an error -/
inductive Fails {σ β : Type} (body : σ → P (σ ⊕ β)) : σ → PS → PS → Prop
  | stop {x s s'} : body x s = .err s' → Fails body x s s'
  | step {x s y s1 s'} : body x s = .ok (.inl y) s1 → Fails body y s1 s' → Fails body x s s'

theorem Fails.rounds {σ β : Type} {body : σ → P (σ ⊕ β)} {x : σ} {s s' : PS} (h : Fails body x s s') :
    ∀ n, rounds body n x s = .hang ∨ rounds body n x s = .err s' := by
  induction h with
  | stop h =>
    intro n
    cases n with
    | zero => exact .inl rfl
    | succ n =>
      unfold CssParse.rounds
      rw [bind_err h]
      exact .inr rfl
  | step h _ ih =>
    intro n
    cases n with
    | zero => exact .inl rfl
    | succ n =>
      unfold CssParse.rounds
      rw [bind_ok h]
      exact ih n

theorem Fails.forever {σ β : Type} {body : σ → P (σ ⊕ β)} {x : σ} {s s' : PS} (h : Fails body x s s')
    (hg : Good (forever body x)) : CssParse.forever body x s = .err s' := by
  rcases h.rounds (14 * s.next.length + 40) with e | e
  · have := hg s
    unfold CssParse.forever at this
    rw [e] at this
    exact this.elim
  · exact e

theorem sheet_fails (env : Env) (hi : env.ignore = false) (n : Nat) (w : WWrongRule) (hw : w.Ok) (r : List Token) :
    ∀ (l : List WRule), (∀ w ∈ l, w.Ok ∧ w.nestLe n ∧ w.nestLe 63) →
    ∀ (acc : List Node) (p : List Token), NB p → ∀ a,
    ∃ s, Fails (sheetRound env (Rec.at env (n + 1))) acc ⟨p, sheetToks l ++ (w.core ++ r), 0, a⟩ s
  | [], _, acc, p, hp, a => by
    obtain ⟨t, q, et, ht⟩ := item_head (.wrong w) hw
    have et : w.core = t :: q := et
    have he := wrongRule_err env w hw (n + 1) p (w.more ++ .lCurly :: (w.body ++ .rCurly :: r)) hp 0 a
    have e0 : w.core ++ r = w.before ++ .delim w.sign :: (w.more ++ .lCurly :: (w.body ++ .rCurly :: r)) := by simp [WWrongRule.core]
    refine ⟨⟨.delim w.sign :: (w.before.reverse ++ p), w.more ++ .lCurly :: (w.body ++ .rCurly :: r), 0, a⟩, .stop ?_⟩
    have hr : rule env (Rec.at env (n + 1)) ⟨p, w.core ++ r, 0, a⟩ =
        .err ⟨.delim w.sign :: (w.before.reverse ++ p), w.more ++ .lCurly :: (w.body ++ .rCurly :: r), 0, a⟩ := by
      unfold rule
      rw [e0, bind_ok (attempt_err he)]
      simp only
      rw [if_neg (by simp [hi])]
      rfl
    show sheetRound env (Rec.at env (n + 1)) acc ⟨p, w.core ++ r, 0, a⟩ = _
    rw [et] at hr ⊢
    unfold sheetRound
    simp only [List.cons_append] at hr ⊢
    rw [bind_ok (atEof_run _ _ _ _ _), if_neg (by cases t <;> simp_all [Starts]), bind_ok (consume_run _ _ _ _ _)]
    cases t with
    | ident _ | delim _ | hash _ | colon | lBracket =>
      simp only
      rw [bind_ok (reconsume_run _ _ _ _ _), bind_err hr]
    | _ => exact ht.elim
  | v :: l, h, acc, p, hp, a => by
    obtain ⟨h1, h2, h3⟩ := h v (by simp)
    have e0 : sheetToks (v :: l) ++ (w.core ++ r) = v.core ++ (ws v.after ++ (sheetToks l ++ (w.core ++ r))) := by
      simp only [sheetToks, List.flatMap_cons, WRule.toks_core]
      simp
    rw [e0]
    obtain ⟨t, q, et, ht⟩ := core_head v h1
    have hr := rule_run env v h1 n h2 p (ws v.after ++ (sheetToks l ++ (w.core ++ r))) hp 0 a
      (fun x hx => by have := h3 x hx; unfold maxDepth; omega) (by decide)
    obtain ⟨s, ih⟩ := sheet_fails env hi n w hw r l (fun x hx => h x (by simp [hx])) (acc ++ [v.node])
      ((ws v.after).reverse ++ (v.core.reverse ++ p)) (by cases v.after <;> simp [NB, ws, WRule.core]) a
    refine ⟨s, ?_⟩
    rw [et] at hr ⊢
    refine .step (sheetRound_rule ht hr) ?_
    rw [← et]
    cases hw : v.after with
    | false => rw [hw] at ih; exact ih
    | true => rw [hw] at ih; exact .step rfl ih

theorem parse_strict (env : Env) (hi : env.ignore = false) (zero : Str → Bool) (l : List WRule) (w : WWrongRule) (hw : w.Ok)
    (rest : List Token) (n : Nat) (h : ∀ w ∈ l, w.Ok ∧ w.nestLe n ∧ w.nestLe 63) :
    parse env zero (n + 1) (sheetToks l ++ w.toks ++ rest) = .error := by
  obtain ⟨s, hf⟩ := sheet_fails env hi n w hw (ws w.after ++ rest) l h [] [] (by simp [NB]) 0
  have hf := hf.forever (good_forever (fun _ => 0) (fun _ => by omega) (round_sheetRound (good_at env (n + 1))) _)
  have e0 : sheetToks l ++ w.toks ++ rest = sheetToks l ++ (w.core ++ (ws w.after ++ rest)) := by
    have := (WItem.wrong w).toks_core
    simp only [WItem.toks, WItem.core, WItem.after] at this
    rw [this]
    simp
  have ht : parseTree env (n + 1) (sheetToks l ++ (w.core ++ (ws w.after ++ rest))) = .err s := by
    unfold parseTree sheet PS.new
    rw [bind_err hf]
  unfold parse
  rw [e0, ht]

end Verif.CssParse
