import Verif.CssParse.Lemmas5

/-! # C111: what is written is read: declarations and blocks -/

namespace Verif.CssParse

open Verif.CssTok (Token)

theorem ws_none (p r : List Token) (t : Token) (ht : t ≠ .whitespace) (d a : Nat) :
    skipWs ⟨p, t :: r, d, a⟩ = .ok () ⟨p, t :: r, d, a⟩ := ws_ok false p r t ht d a

mutual
theorem scan_value : ∀ (v : WValue) (e : Nat) (r : List Token), scanNested e (v.toks ++ r) = scanNested e r
  | .ident _, _, _ | .number _, _, _ | .percentage _, _, _ | .dimension _ _, _, _ | .hash _, _, _ | .str _, _, _ | .url _, _, _
  | .comma, _, _ | .op _, _, _ => by simp only [WValue.toks]; rfl
  | .func n args, e, r => by
    simp only [WValue.toks]
    have : scanNested e ([.function n] ++ args.toks ++ [.rParen] ++ r) = scanNested (e + 1) (args.toks ++ (.rParen :: r)) := by
      rw [List.append_assoc, List.append_assoc]
      rfl
    rw [this, scan_values args]
    rfl
theorem scan_values : ∀ (v : WValues) (e : Nat) (r : List Token), scanNested e (v.toks ++ r) = scanNested e r
  | .nil, _, _ => rfl
  | .cons v b w, e, r => by
    have hw : ∀ r, scanNested e (ws b ++ r) = scanNested e r := by cases b <;> intro r <;> rfl
    simp only [WValues.toks, List.append_assoc]
    rw [scan_value v, hw, scan_values w]
end

theorem scan_ws (b : Bool) (e : Nat) (r : List Token) : scanNested e (ws b ++ r) = scanNested e r := by cases b <;> rfl

/-- the end of a declaration -/
def Close (t : Token) : Prop := t = .semicolon ∨ t = .rCurly

theorem Close.stop {t : Token} (h : Close t) : Stop t := h.elim (fun h => .inr (.inl h)) fun h => .inr (.inr (.inl h))

theorem scan_decl (w : WDecl) {t : Token} (ht : Close t) (r : List Token) : scanNested 0 (w.toks ++ t :: r) = (false, false) := by
  have h1 : scanNested 0 (t :: r) = (false, false) := by rcases ht with rfl | rfl <;> rfl
  have h2 : ∀ l, scanNested 0 ([.ident w.property] ++ ws w.beforeColon ++ [.colon] ++ ws w.afterColon ++ w.values.toks ++ l) =
      scanNested 0 l := by
    intro l
    simp only [List.append_assoc]
    have : ∀ l, scanNested 0 ([Token.ident w.property] ++ l) = scanNested 0 l := fun _ => rfl
    rw [this, scan_ws]
    have : ∀ l, scanNested 0 ([Token.colon] ++ l) = scanNested 0 l := fun _ => rfl
    rw [this, scan_ws, scan_values]
  unfold WDecl.toks
  rw [List.append_assoc, h2]
  split
  · simp only [List.append_assoc]
    have : ∀ l, scanNested 0 ([Token.delim '!', .ident "important".toList] ++ l) = scanNested 0 l := fun _ => rfl
    rw [this, scan_ws, h1]
  · exact h1

theorem values_head (v : WValues) (h : v.Ok) (hn : v ≠ .nil) : ∃ t r, v.toks = t :: r ∧ t ≠ .whitespace := by
  cases v with
  | nil => exact absurd rfl hn
  | cons v b w =>
    simp only [WValues.Ok] at h
    obtain ⟨u, q, e, hu, _⟩ := value_toks_head v h.1
    exact ⟨u, _, by simp only [WValues.toks, e, List.cons_append]; rfl, hu⟩

/-- the node of a declaration -/
def WDecl.node (w : WDecl) : Node := .declaration w.property w.values.nodes w.important

/-- the tokens of a declaration from the values on -/
def WDecl.tail (w : WDecl) : List Token := if w.important then [.delim '!', .ident "important".toList] ++ ws w.after else []

theorem important_run (w : WDecl) {t : Token} (ht : Close t) (p r : List Token) (d a : Nat) :
    important ⟨p, w.tail ++ t :: r, d, a⟩ = .ok w.important ⟨w.tail.reverse ++ p, t :: r, d, a⟩ := by
  unfold important WDecl.tail
  cases w.important with
  | false =>
    simp only [Bool.false_eq_true, if_false, List.nil_append]
    rw [bind_ok (consume_run _ _ _ _ _), if_neg (by rcases ht with rfl | rfl <;> simp), bind_ok (reconsume_run _ _ _ _ _)]
    rfl
  | true =>
    simp only [if_true]
    simp only [List.cons_append, List.nil_append]
    have e1 : consumeIdent "important".toList ⟨.delim '!' :: p, .ident "important".toList :: (ws w.after ++ t :: r), d, a⟩ =
        .ok () ⟨.ident "important".toList :: .delim '!' :: p, ws w.after ++ t :: r, d, a⟩ := by
      unfold consumeIdent
      rw [bind_ok (consume_run _ _ _ _ _)]
      simp only [if_true]
      rfl
    rw [bind_ok (consume_run _ _ _ _ _), if_pos rfl, bind_ok e1, bind_ok (ws_ok w.after _ r t (stop_head ht.stop).1 d a)]
    simp [pure_run]

theorem nodes_ne (v : WValues) (h : v ≠ .nil) : v.nodes.isEmpty = false := by
  cases v with
  | nil => exact absurd rfl h
  | cons v b w => simp [WValues.nodes]

theorem declarationInternal_run (env : Env) (w : WDecl) (hw : w.Ok) (n : Nat) (hn : w.values.nest ≤ n) {t : Token} (ht : Close t)
    (p r : List Token) (d a : Nat) (hd : d + w.values.nest ≤ maxDepth) :
    declarationInternal env (Rec.at env n) ⟨p, w.toks ++ t :: r, d, a⟩ = .ok w.node ⟨w.toks.reverse ++ p, t :: r, d, a⟩ := by
  obtain ⟨h1, h2, h3⟩ := hw
  obtain ⟨u, q, eu, hu⟩ := values_head w.values h3 h2
  have e0 : w.toks ++ t :: r = .ident w.property :: (ws w.beforeColon ++ .colon :: (ws w.afterColon ++ u :: (q ++ (w.tail ++ t :: r)))) := by
    have : w.toks = [.ident w.property] ++ ws w.beforeColon ++ [.colon] ++ ws w.afterColon ++ w.values.toks ++ w.tail := rfl
    rw [this, eu]
    simp
  have e1 : consumeAnyIdent ⟨p, w.toks ++ t :: r, d, a⟩ = .ok w.property ⟨.ident w.property :: p,
      ws w.beforeColon ++ .colon :: (ws w.afterColon ++ u :: (q ++ (w.tail ++ t :: r))), d, a⟩ := by rw [e0]; rfl
  have e2 := ws_ok w.beforeColon (.ident w.property :: p) (ws w.afterColon ++ u :: (q ++ (w.tail ++ t :: r))) .colon (by simp) d a
  have e3 := expect_run ((ws w.beforeColon).reverse ++ .ident w.property :: p) (ws w.afterColon ++ u :: (q ++ (w.tail ++ t :: r)))
    .colon d a
  have e4 := ws_ok w.afterColon (.colon :: ((ws w.beforeColon).reverse ++ .ident w.property :: p)) (q ++ (w.tail ++ t :: r)) u hu d a
  have e5 := ws_none ((ws w.afterColon).reverse ++ .colon :: ((ws w.beforeColon).reverse ++ .ident w.property :: p))
    (q ++ (w.tail ++ t :: r)) u hu d a
  have e6 : values env (Rec.at env n) ⟨(ws w.afterColon).reverse ++ .colon :: ((ws w.beforeColon).reverse ++ .ident w.property :: p),
      u :: (q ++ (w.tail ++ t :: r)), d, a⟩ = .ok w.values.nodes ⟨w.values.toks.reverse ++
      ((ws w.afterColon).reverse ++ .colon :: ((ws w.beforeColon).reverse ++ .ident w.property :: p)), w.tail ++ t :: r, d, a⟩ := by
    obtain ⟨t', r', et, ht'⟩ : ∃ t' r', w.tail ++ t :: r = t' :: r' ∧ Stop t' := by
      unfold WDecl.tail
      cases w.important
      · exact ⟨t, r, rfl, ht.stop⟩
      · exact ⟨_, _, rfl, .inr (.inr (.inr rfl))⟩
    have := values_read env w.values h3 n hn false
      ((ws w.afterColon).reverse ++ .colon :: ((ws w.beforeColon).reverse ++ .ident w.property :: p)) r' t' ht' d a hd
    rw [et]
    rw [eu] at this ⊢
    simpa [ws] using this
  have e7 := important_run w ht (w.values.toks.reverse ++
      ((ws w.afterColon).reverse ++ .colon :: ((ws w.beforeColon).reverse ++ .ident w.property :: p))) r d a
  unfold declarationInternal
  rw [bind_ok e1]
  simp only [h1, Bool.not_false, if_true, Bool.false_eq_true, if_false]
  rw [bind_ok e2, bind_ok e3, bind_ok e4]
  rw [bind_ok e5, bind_ok e6, if_neg (by rw [nodes_ne _ h2]; simp), bind_ok e7]
  have : w.toks = [.ident w.property] ++ ws w.beforeColon ++ [.colon] ++ ws w.afterColon ++ w.values.toks ++ w.tail := rfl
  simp [pure_run, this, WDecl.node]

theorem blockRound_decl (env : Env) (w : WDecl) (hw : w.Ok) (n : Nat) (hn : w.values.nest ≤ n) {t : Token} (ht : Close t)
    (p r : List Token) (d a : Nat) (hd : d + w.values.nest ≤ maxDepth) (ch : List Node) :
    blockRound env (Rec.at env n) .style (ch, true) ⟨p, w.toks ++ t :: r, d, a⟩ =
      .ok (.inl (ch ++ [w.node], false)) ⟨w.toks.reverse ++ p, t :: r, d, a⟩ := by
  have h := declarationInternal_run env w hw n hn ht p r d a hd
  have hs : startsNested ⟨p, w.toks ++ t :: r, d, a⟩ = .ok false ⟨p, w.toks ++ t :: r, d, a⟩ := by
    unfold startsNested
    simp only [scan_decl w ht r]
    rfl
  have hdecl : declaration env (Rec.at env n) ⟨p, w.toks ++ t :: r, d, a⟩ = .ok (some w.node) ⟨w.toks.reverse ++ p, t :: r, d, a⟩ := by
    unfold declaration
    rw [bind_ok (attempt_ok h)]
    rfl
  obtain ⟨l, e0⟩ : ∃ l, w.toks ++ t :: r = .ident w.property :: l := ⟨_, by
    unfold WDecl.toks
    simp only [List.append_assoc]
    rfl⟩
  rw [e0] at hs hdecl ⊢
  unfold blockRound
  rw [bind_ok (atEof_run _ _ _ _ _), if_neg (by simp), bind_ok (consume_run _ _ _ _ _)]
  simp only
  have hi : blockItem env (Rec.at env n) .style ch true ⟨.ident w.property :: p, l, d, a⟩ =
      .ok (ch ++ [w.node], false) ⟨w.toks.reverse ++ p, t :: r, d, a⟩ := by
    unfold blockItem
    simp only [Bool.not_true, Bool.false_eq_true, if_false]
    rw [bind_ok (reconsume_run _ _ _ _ _), bind_ok hs, if_neg (by simp), bind_ok hdecl]
    rfl
  rw [bind_ok hi]
  rfl

/-- the tokens in a block after the brace and its white space -/
def bodyToks (init : List (WDecl × Bool)) (last : Option WDecl) : List Token :=
  (init.flatMap fun x => x.1.toks ++ [.semicolon] ++ ws x.2) ++ last.toList.flatMap WDecl.toks

theorem runs_ws (env : Env) (k : Rec) {b : Bool} {x : List Node × Bool} {p l : List Token} {d a : Nat} {y : List Node} {s' : PS}
    (h : Runs (blockRound env k .style) x ⟨(ws b).reverse ++ p, l, d, a⟩ y s') :
    Runs (blockRound env k .style) x ⟨p, ws b ++ l, d, a⟩ y s' := by
  cases b with
  | false => exact h
  | true => exact .step rfl h

theorem block_runs (env : Env) (n : Nat) (last : Option WDecl) (r : List Token) (d a : Nat) : ∀ (init : List (WDecl × Bool)),
    (∀ w ∈ init.map Prod.fst ++ last.toList, w.Ok ∧ w.values.nest ≤ n ∧ d + w.values.nest ≤ maxDepth) →
    ∀ (ch : List Node) (p : List Token),
    Runs (blockRound env (Rec.at env n) .style) (ch, true) ⟨p, bodyToks init last ++ .rCurly :: r, d, a⟩
      (ch ++ (init.map Prod.fst ++ last.toList).map WDecl.node) ⟨(bodyToks init last).reverse ++ p, .rCurly :: r, d, a⟩
  | [], h, ch, p => by
    cases last with
    | none =>
      refine .stop ?_
      simp only [bodyToks, List.flatMap_nil, Option.toList, List.nil_append, List.map_nil, List.append_nil, List.reverse_nil]
      rfl
    | some w =>
      obtain ⟨h1, h2, h3⟩ := h w (by simp)
      refine .step (y := (ch ++ [w.node], false)) (s1 := ⟨w.toks.reverse ++ p, .rCurly :: r, d, a⟩) ?_ (.stop ?_)
      · have := blockRound_decl env w h1 n h2 (.inr rfl) p r d a h3 ch
        simpa [bodyToks] using this
      · simp only [bodyToks, List.flatMap_nil, Option.toList, List.nil_append, List.map_cons, List.map_nil, List.flatMap_cons,
          List.append_nil]
        rfl
  | (w, b) :: l, h, ch, p => by
    obtain ⟨h1, h2, h3⟩ := h w (by simp)
    have ih := block_runs env n last r d a l (fun v hv => h v (by simp at hv ⊢; tauto)) (ch ++ [w.node])
      ((ws b).reverse ++ .semicolon :: (w.toks.reverse ++ p))
    have e0 : bodyToks ((w, b) :: l) last ++ .rCurly :: r =
      w.toks ++ .semicolon :: (ws b ++ (bodyToks l last ++ .rCurly :: r)) := by
      simp [bodyToks]
    have e1 : (bodyToks ((w, b) :: l) last).reverse ++ p =
      (bodyToks l last).reverse ++ ((ws b).reverse ++ .semicolon :: (w.toks.reverse ++ p)) := by
      simp [bodyToks]
    have e2 : ch ++ (((w, b) :: l).map Prod.fst ++ last.toList).map WDecl.node =
      ch ++ [w.node] ++ (l.map Prod.fst ++ last.toList).map WDecl.node := by simp
    rw [e0, e1, e2]
    refine .step (blockRound_decl env w h1 n h2 (.inl rfl) p _ d a h3 ch) ?_
    refine .step (y := (ch ++ [w.node], true)) (s1 := ⟨.semicolon :: (w.toks.reverse ++ p), _, d, a⟩) rfl ?_
    exact runs_ws env _ ih

theorem blockInner_run (env : Env) (n : Nat) (init : List (WDecl × Bool)) (last : Option WDecl) (p r : List Token) (d a : Nat)
    (h : ∀ w ∈ init.map Prod.fst ++ last.toList, w.Ok ∧ w.values.nest ≤ n ∧ d + w.values.nest ≤ maxDepth) :
    blockInner env (Rec.at env n) .style ⟨p, bodyToks init last ++ .rCurly :: r, d, a⟩ =
      .ok (.block ((init.map Prod.fst ++ last.toList).map WDecl.node)) ⟨(bodyToks init last).reverse ++ p, .rCurly :: r, d, a⟩ := by
  unfold blockInner
  have hg : Good (forever (blockRound env (Rec.at env n) .style) ([], true)) :=
    good_forever (fun y => weight y.2) (fun y => by unfold weight; split <;> omega) (round_blockRound (good_at env n) .style) _
  rw [bind_ok ((block_runs env n last r d a init h [] p).forever hg)]
  rfl

end Verif.CssParse
