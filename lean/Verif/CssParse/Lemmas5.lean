import Verif.CssParse.Spec
import Verif.CssParse.Lemmas4

/-! # C111: what is written is read: values and declarations -/

namespace Verif.CssParse

open Verif.CssTok (Token)

/-- the rounds of a loop, one after the other -/
inductive Runs {σ β : Type} (body : σ → P (σ ⊕ β)) : σ → PS → β → PS → Prop
  | stop {x s b s'} : body x s = .ok (.inr b) s' → Runs body x s b s'
  | step {x s y s1 b s'} : body x s = .ok (.inl y) s1 → Runs body y s1 b s' → Runs body x s b s'

theorem Runs.rounds {σ β : Type} {body : σ → P (σ ⊕ β)} {x : σ} {s s' : PS} {b : β} (h : Runs body x s b s') :
    ∀ n, rounds body n x s = .hang ∨ rounds body n x s = .ok b s' := by
  induction h with
  | stop h =>
    intro n
    cases n with
    | zero => exact .inl rfl
    | succ n =>
      unfold CssParse.rounds
      rw [bind_ok h]
      exact .inr rfl
  | step h _ ih =>
    intro n
    cases n with
    | zero => exact .inl rfl
    | succ n =>
      unfold CssParse.rounds
      rw [bind_ok h]
      exact ih n

theorem Runs.forever {σ β : Type} {body : σ → P (σ ⊕ β)} {x : σ} {s s' : PS} {b : β} (h : Runs body x s b s')
    (hg : Good (forever body x)) : CssParse.forever body x s = .ok b s' := by
  rcases h.rounds (14 * s.next.length + 40) with e | e
  · have := hg s
    unfold CssParse.forever at this
    rw [e] at this
    exact this.elim
  · exact e

mutual
/-- the node of a value -/
def WValue.node : WValue → Node
  | .ident v => .ident v
  | .number v => .number v
  | .percentage v => .percentage v
  | .dimension v u => .dimension v u
  | .hash v => .hash v
  | .str v => .str v
  | .url u => .url u
  | .comma => .comma
  | .op c => .operator [c]
  | .func n args => .function n args.nodes
def WValues.nodes : WValues → List Node
  | .nil => []
  | .cons v _ r => v.node :: r.nodes
end

mutual
theorem WValue.toValue (zero : Str → Bool) : ∀ v : WValue, CssParse.toValue zero v.node = some (v.value zero)
  | .ident _ | .number _ | .percentage _ | .dimension _ _ | .hash _ | .str _ | .url _ | .comma | .op _ => by
    simp [WValue.node, CssParse.toValue, WValue.value]
  | .func n args => by
    simp only [WValue.node, CssParse.toValue, WValue.value]
    rw [WValues.toValues zero args]
    rfl
theorem WValues.toValues (zero : Str → Bool) : ∀ v : WValues, CssParse.toValues zero v.nodes = some (v.values zero)
  | .nil => by simp [WValues.nodes, CssParse.toValues, WValues.values]
  | .cons v b r => by
    simp only [WValues.nodes, CssParse.toValues, WValues.values]
    rw [WValue.toValue zero v, WValues.toValues zero r]
    rfl
end

theorem WValues.filterMap (zero : Str → Bool) : ∀ v : WValues, v.nodes.filterMap (CssParse.toValue zero) = v.values zero
  | .nil => rfl
  | .cons v b r => by
    simp only [WValues.nodes, WValues.values, List.filterMap_cons, WValue.toValue]
    rw [WValues.filterMap zero r]

/-- a token that ends a sequence of values -/
def Stop (t : Token) : Prop := t = .rParen ∨ t = .semicolon ∨ t = .rCurly ∨ t = .delim '!'

/-- what may follow a value -/
def Follow (l : List Token) : Prop := ∃ t r, l = t :: r ∧ t ≠ .delim '='

theorem consume_run (p r : List Token) (t : Token) (d a : Nat) : consume ⟨p, t :: r, d, a⟩ = .ok t ⟨t :: p, r, d, a⟩ := rfl

theorem lookahead0_run (p r : List Token) (t : Token) (d a : Nat) : lookahead 0 ⟨p, t :: r, d, a⟩ = .ok t ⟨p, t :: r, d, a⟩ := by
  simp [lookahead, pad]

theorem expect_run (p r : List Token) (t : Token) (d a : Nat) : expect t ⟨p, t :: r, d, a⟩ = .ok () ⟨t :: p, r, d, a⟩ := by
  unfold expect
  rw [bind_ok (consume_run p r t d a), if_pos rfl]
  rfl

theorem ws_ok (b : Bool) (p r : List Token) (t : Token) (ht : t ≠ .whitespace) (d a : Nat) :
    skipWs ⟨p, ws b ++ t :: r, d, a⟩ = .ok () ⟨(ws b).reverse ++ p, t :: r, d, a⟩ := by
  have h : ∀ q, wsLoop q (t :: r) = (q, t :: r) := by
    intro q
    unfold wsLoop
    split <;> simp_all
  cases b <;> simp [ws, skipWs, wsLoop, h]

theorem value_toks_head : ∀ v : WValue, v.Ok → ∃ t r, v.toks = t :: r ∧ t ≠ .whitespace ∧ t ≠ .delim '='
  | .ident _, _ | .number _, _ | .percentage _, _ | .dimension _ _, _ | .hash _, _ | .str _, _ | .url _, _ | .comma, _ =>
    ⟨_, _, by simp only [WValue.toks]; rfl, by simp, by simp⟩
  | .op c, h => ⟨.delim c, [], by simp only [WValue.toks], by simp, by
      simp only [WValue.Ok] at h
      rintro e
      cases e
      simp at h⟩
  | .func _ _, _ => ⟨_, _, by simp only [WValue.toks]; rfl, by simp, by simp⟩

theorem stop_head {t : Token} (h : Stop t) : t ≠ .whitespace ∧ t ≠ .delim '=' := by
  rcases h with rfl | rfl | rfl | rfl <;> simp

theorem follow_values {t : Token} (ht : Stop t) (r : List Token) : ∀ (v : WValues), v.Ok → Follow (v.toks ++ t :: r)
  | .nil, _ => ⟨t, r, rfl, (stop_head ht).2⟩
  | .cons v b w, h => by
    simp only [WValues.Ok] at h
    obtain ⟨u, q, e, _, h2⟩ := value_toks_head v h.1
    simp only [WValues.toks, e, List.cons_append]
    exact ⟨u, _, rfl, h2⟩

theorem follow_ws {t : Token} (ht : Stop t) (r : List Token) (b : Bool) (v : WValues) (h : v.Ok) :
    Follow (ws b ++ v.toks ++ t :: r) := by
  cases b
  · exact follow_values ht r v h
  · exact ⟨.whitespace, _, rfl, by simp⟩

theorem value_stop (env : Env) (k : Rec) {t : Token} (ht : Stop t) (p r : List Token) (d a : Nat) :
    value env k ⟨p, t :: r, d, a⟩ = .ok none ⟨p, t :: r, d, a⟩ := by
  rcases ht with rfl | rfl | rfl | rfl <;> rfl

theorem atEof_run (p r : List Token) (t : Token) (d a : Nat) : atEof ⟨p, t :: r, d, a⟩ = .ok false ⟨p, t :: r, d, a⟩ := rfl

/-- one round of `values` -/
def valuesRound (env : Env) (k : Rec) (acc : List Node) : P (List Node ⊕ List Node) := do
  if (← atEof) then return .inr acc
  if (← consume) ≠ .whitespace then reconsume
  match ← value env k with
  | none => return .inr acc
  | some n => return .inl (acc ++ [n])

theorem values_eq (env : Env) (k : Rec) : values env k = forever (valuesRound env k) [] := rfl

theorem valuesRound_run (env : Env) (k : Rec) (acc : List Node) (b : Bool) (p r : List Token) (t : Token) (ht : t ≠ .whitespace)
    (d a : Nat) : valuesRound env k acc ⟨p, ws b ++ t :: r, d, a⟩ =
      (value env k >>= fun o => match o with | none => pure (.inr acc) | some n => pure (.inl (acc ++ [n])))
        ⟨(ws b).reverse ++ p, t :: r, d, a⟩ := by
  cases b
  · show valuesRound env k acc ⟨p, t :: r, d, a⟩ = _
    unfold valuesRound
    rw [bind_ok (atEof_run p r t d a), if_neg (by simp), bind_ok (consume_run p r t d a), if_pos ht]
    rfl
  · rfl

theorem recurse_run {α : Type} {f : P α} {p n p' n' : List Token} {d a a' : Nat} {x : α} (hd : d < maxDepth)
    (h : f ⟨p, n, d + 1, a⟩ = .ok x ⟨p', n', d + 1, a'⟩) : recurse f ⟨p, n, d, a⟩ = .ok x ⟨p', n', d, a'⟩ := by
  unfold recurse
  rw [if_neg (by simp only; omega)]
  simp only
  rw [h]
  rfl

theorem function_run (k : Rec) {n : Str} {p q x r : List Token} {d : Nat} {l : List Node} (hd : d < maxDepth)
    (hv : ∀ a, k.args ⟨.function n :: p, x, d + 1, a⟩ = .ok l ⟨q, .rParen :: r, d + 1, a⟩) (a : Nat) :
    function k ⟨p, .function n :: x, d, a⟩ = .ok (.function n l) ⟨.rParen :: q, r, d, a⟩ := by
  have hr : recurse (if n = "alpha".toList then do allowPush; thenPop k.args else k.args) ⟨.function n :: p, x, d, a⟩ =
      .ok l ⟨q, .rParen :: r, d, a⟩ := by
    refine recurse_run hd ?_
    by_cases ha : n = "alpha".toList
    · rw [if_pos ha]
      have e : allowPush ⟨.function n :: p, x, d + 1, a⟩ = .ok () ⟨.function n :: p, x, d + 1, a + 1⟩ := rfl
      rw [bind_ok e]
      unfold thenPop
      rw [hv]
      rfl
    · rw [if_neg ha]
      exact hv a
  unfold function
  have e1 : consumeFunction ⟨p, .function n :: x, d, a⟩ = .ok n ⟨.function n :: p, x, d, a⟩ := rfl
  rw [bind_ok e1, bind_ok hr, bind_ok (atEof_run _ _ _ _ _)]
  simp only [Bool.not_false, if_true]
  rw [bind_ok (expect_run _ _ _ _ _)]
  rfl

theorem value_func (env : Env) (k : Rec) {n : Str} {p q x r : List Token} {d : Nat} {l : List Node}
    (h1 : n.map lowerChar ≠ "calc".toList) (h2 : n.map lowerChar ≠ "url".toList) (hd : d < maxDepth)
    (hv : ∀ a, k.args ⟨.function n :: p, x, d + 1, a⟩ = .ok l ⟨q, .rParen :: r, d + 1, a⟩) (a : Nat) :
    value env k ⟨p, .function n :: x, d, a⟩ = .ok (some (.function n l)) ⟨.rParen :: q, r, d, a⟩ := by
  unfold value
  rw [bind_ok (consume_run _ _ _ _ _)]
  simp only
  rw [if_neg h1, if_neg h2, bind_ok (reconsume_run _ _ _ _ _), bind_ok (function_run k hd hv a)]
  rfl

mutual
theorem value_read (env : Env) : ∀ (v : WValue), v.Ok → ∀ (n : Nat), v.nest ≤ n → ∀ (p r : List Token) (d a : Nat), Follow r →
    d + v.nest ≤ maxDepth →
    value env (Rec.at env n) ⟨p, v.toks ++ r, d, a⟩ = .ok (some v.node) ⟨v.toks.reverse ++ p, r, d, a⟩
  | .number _, _, _, _, p, r, d, a, _, _ | .percentage _, _, _, _, p, r, d, a, _, _ | .dimension _ _, _, _, _, p, r, d, a, _, _
  | .hash _, _, _, _, p, r, d, a, _, _ | .str _, _, _, _, p, r, d, a, _, _ | .url _, _, _, _, p, r, d, a, _, _
  | .comma, _, _, _, p, r, d, a, _, _ => by simp only [WValue.toks, WValue.node]; rfl
  | .op c, h, n, _, p, r, d, a, _, _ => by
    simp only [WValue.Ok] at h
    simp only [WValue.toks, WValue.node]
    show (if c ∈ ['+', '-', '*', '/'] then (reconsume >>= fun _ => operator >>= fun o => pure (some o)) else _)
      (⟨.delim c :: p, r, d, a⟩ : PS) = _
    rw [if_pos h]
    show (operator >>= fun o => pure (some o)) (⟨p, .delim c :: r, d, a⟩ : PS) = _
    have e : operator ⟨p, .delim c :: r, d, a⟩ = .ok (.operator [c]) ⟨.delim c :: p, r, d, a⟩ := by
      show (if c ∈ ['/', '*', ',', ':', '+', '-', '='] then pure (Node.operator [c]) else fail) (⟨.delim c :: p, r, d, a⟩ : PS) = _
      rw [if_pos (by simp only [List.mem_cons, List.not_mem_nil, or_false] at h ⊢; rcases h with h | h | h | h <;> simp [h])]
      rfl
    rw [bind_ok e]
    rfl
  | .ident v, h, n, _, p, r, d, a, hf, _ => by
    simp only [WValue.Ok] at h
    obtain ⟨t, q, rfl, ht⟩ := hf
    simp only [WValue.toks, WValue.node]
    show identValue env (Rec.at env n) v ⟨.ident v :: p, t :: q, d, a⟩ = _
    unfold identValue
    rw [if_neg (by rw [h.1]; simp)]
    by_cases ha : a > 0
    · have e : allowed ⟨.ident v :: p, t :: q, d, a⟩ = .ok true ⟨.ident v :: p, t :: q, d, a⟩ := by simp [allowed, ha]
      rw [bind_ok e, if_pos rfl, bind_ok (lookahead0_run _ _ _ _ _), if_neg ht, if_neg (by rw [h.2]; simp)]
      rfl
    · have e : allowed ⟨.ident v :: p, t :: q, d, a⟩ = .ok false ⟨.ident v :: p, t :: q, d, a⟩ := by simp [allowed, ha]
      rw [bind_ok e, if_neg (by simp), if_neg (by rw [h.2]; simp)]
      rfl
  | .func n args, h, m, hm, p, r, d, a, hf, hd => by
    simp only [WValue.Ok] at h
    simp only [WValue.nest] at hm hd
    obtain ⟨h1, h2, h3⟩ := h
    simp only [WValue.toks, WValue.node]
    cases m with
    | zero => omega
    | succ m =>
      have hv : ∀ a', (Rec.at env (m + 1)).args ⟨.function n :: p, args.toks ++ [.rParen] ++ r, d + 1, a'⟩ =
          .ok args.nodes ⟨args.toks.reverse ++ .function n :: p, .rParen :: r, d + 1, a'⟩ := by
        intro a'
        have ea : (Rec.at env (m + 1)).args = values env (Rec.at env m) := rfl
        rw [ea]
        have := values_read env args h3 m (by omega) false (.function n :: p) r .rParen (.inl rfl) (d + 1) a' (by omega)
        simpa [ws] using this
      have := value_func env (Rec.at env (m + 1)) h1 h2 (by omega) hv a
      simpa using this
theorem values_runs (env : Env) : ∀ (v : WValues), v.Ok → ∀ (n : Nat), v.nest ≤ n → ∀ (b : Bool) (acc : List Node)
    (p r : List Token) (t : Token), Stop t → ∀ (d a : Nat), d + v.nest ≤ maxDepth →
    Runs (valuesRound env (Rec.at env n)) acc ⟨p, ws b ++ v.toks ++ t :: r, d, a⟩ (acc ++ v.nodes)
      ⟨(ws b ++ v.toks).reverse ++ p, t :: r, d, a⟩
  | .nil, _, n, _, b, acc, p, r, t, ht, d, a, _ => by
    simp only [WValues.toks, WValues.nodes, List.append_nil]
    refine .stop ?_
    rw [valuesRound_run env _ acc b p r t (stop_head ht).1 d a, bind_ok (value_stop env _ ht _ _ _ _)]
    rfl
  | .cons v c w, h, n, hn, b, acc, p, r, t, ht, d, a, hd => by
    simp only [WValues.Ok] at h
    simp only [WValues.nest] at hn hd
    obtain ⟨u, q, e, hu, _⟩ := value_toks_head v h.1
    have h1 := value_read env v h.1 n (by omega) ((ws b).reverse ++ p) (ws c ++ w.toks ++ t :: r) d a (follow_ws ht r c w h.2) (by omega)
    have h2 := values_runs env w h.2 n (by omega) c (acc ++ [v.node]) (v.toks.reverse ++ ((ws b).reverse ++ p)) r t ht d a (by omega)
    simp only [WValues.toks, WValues.nodes]
    have e1 : acc ++ v.node :: w.nodes = acc ++ [v.node] ++ w.nodes := by simp
    have e2 : (ws b ++ (v.toks ++ ws c ++ w.toks)).reverse ++ p =
      (ws c ++ w.toks).reverse ++ (v.toks.reverse ++ ((ws b).reverse ++ p)) := by simp
    have e3 : ws b ++ (v.toks ++ ws c ++ w.toks) ++ t :: r = ws b ++ (v.toks ++ (ws c ++ w.toks ++ t :: r)) := by simp
    rw [e1, e2, e3]
    refine .step ?_ h2
    rw [e, List.cons_append, valuesRound_run env _ acc b p _ u hu d a, ← List.cons_append, ← e, bind_ok h1]
    rfl
theorem values_read (env : Env) : ∀ (v : WValues), v.Ok → ∀ (n : Nat), v.nest ≤ n → ∀ (b : Bool) 
    (p r : List Token) (t : Token), Stop t → ∀ (d a : Nat), d + v.nest ≤ maxDepth →
    values env (Rec.at env n) ⟨p, ws b ++ v.toks ++ t :: r, d, a⟩ = .ok v.nodes ⟨(ws b ++ v.toks).reverse ++ p, t :: r, d, a⟩ :=
  fun v h n hn b p r t ht d a hd =>
    (values_runs env v h n hn b [] p r t ht d a hd).forever (good_values (good_at env n))
end

end Verif.CssParse
