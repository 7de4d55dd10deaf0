import Verif.CssParse.Lemmas5

/-! # C110: how deep the parser's calls go -/

namespace Verif.CssParse

open Verif.CssTok (Token)

/-- `(a b)` -/
def wrongFeature : List Token := [.lParen, .ident ['a'], .whitespace, .ident ['b'], .rParen]

theorem deep_bind {α β : Type} {f : P α} {g : α → P β} {s : PS} (h : f s = .deep) : (f >>= g) s = .deep := by
  show (match f s with | .ok a s' => g a s' | .err s' => .err s' | .deep => .deep | .hang => .hang) = .deep
  rw [h]

theorem wrongFeature_fails (k : Rec) (kind : Kind) (p r : List Token) (d a : Nat) :
    mediaFeatureOrRange k kind ⟨p, wrongFeature ++ r, d, a⟩ =
      .err ⟨[.ident ['b'], .whitespace, .ident ['a'], .lParen] ++ p, .rParen :: r, d, a⟩ := by
  unfold mediaFeatureOrRange
  have h1 : lookaheadSc 1 ⟨p, wrongFeature ++ r, d, a⟩ = .ok (.ident ['a']) ⟨p, wrongFeature ++ r, d, a⟩ := by
    simp [lookaheadSc, pad, wrongFeature]
  have h2 : lookaheadSc 2 ⟨p, wrongFeature ++ r, d, a⟩ = .ok (.ident ['b']) ⟨p, wrongFeature ++ r, d, a⟩ := by
    simp [lookaheadSc, pad, wrongFeature]
  rw [bind_ok h1, bind_ok h2, if_neg (by decide)]
  rfl

theorem conditionRound_deep (k : Rec) (p r : List Token) (d a : Nat) (acc : List Node)
    (h : k.cond .media ⟨wrongFeature.reverse ++ p, r, d, a⟩ = .deep) :
    conditionRound k .media acc ⟨p, wrongFeature ++ r, d, a⟩ = .deep := by
  unfold conditionRound
  have hc : consume ⟨p, wrongFeature ++ r, d, a⟩ = .ok .lParen ⟨.lParen :: p, wrongFeature.tail ++ r, d, a⟩ := rfl
  have hr : reconsume ⟨.lParen :: p, wrongFeature.tail ++ r, d, a⟩ = .ok () ⟨p, wrongFeature ++ r, d, a⟩ := rfl
  rw [bind_ok hc]
  simp only
  rw [bind_ok hr, if_neg (by decide), bind_ok (attempt_err (wrongFeature_fails k .media p r d a))]
  simp only
  have he : expect .rParen ⟨[.ident ['b'], .whitespace, .ident ['a'], .lParen] ++ p, .rParen :: r, d, a⟩ =
    .ok () ⟨wrongFeature.reverse ++ p, r, d, a⟩ := rfl
  rw [bind_ok he]
  exact deep_bind h

theorem condition_deep (k : Rec) (p r : List Token) (d a : Nat)
    (h : k.cond .media ⟨wrongFeature.reverse ++ p, r, d, a⟩ = .deep) :
    condition k .media ⟨p, wrongFeature ++ r, d, a⟩ = .deep := by
  unfold condition
  refine deep_bind ?_
  unfold forever
  exact deep_bind (conditionRound_deep k p r d a [] h)

/-- so many wrong features -/
def wrongFeatures : Nat → List Token
  | 0 => []
  | n + 1 => wrongFeature ++ wrongFeatures n

theorem cond_deep (env : Env) (d a : Nat) : ∀ n p, (Rec.at env n).cond .media ⟨p, wrongFeatures n, d, a⟩ = .deep
  | 0, _ => rfl
  | n + 1, p => condition_deep (Rec.at env n) p _ d a (cond_deep env d a n _)

theorem mediaQuery_deep (env : Env) (k : Rec) (p r : List Token) (d a : Nat)
    (h : k.cond .media ⟨wrongFeature.reverse ++ p, r, d, a⟩ = .deep) :
    mediaQuery env k ⟨p, wrongFeature ++ r, d, a⟩ = .deep := by
  unfold mediaQuery
  have h1 : skipWs ⟨p, wrongFeature ++ r, d, a⟩ = .ok () ⟨p, wrongFeature ++ r, d, a⟩ := rfl
  have hc : consume ⟨p, wrongFeature ++ r, d, a⟩ = .ok .lParen ⟨.lParen :: p, wrongFeature.tail ++ r, d, a⟩ := rfl
  have hl : lookaheadSc 0 ⟨.lParen :: p, wrongFeature.tail ++ r, d, a⟩ = .ok (.ident ['a']) ⟨.lParen :: p, wrongFeature.tail ++ r, d, a⟩ := by
    simp [lookaheadSc, pad, wrongFeature]
  have hr : reconsume ⟨.lParen :: p, wrongFeature.tail ++ r, d, a⟩ = .ok () ⟨p, wrongFeature ++ r, d, a⟩ := rfl
  rw [bind_ok h1, bind_ok hc, bind_ok hl]
  simp only
  rw [bind_ok hr]
  exact deep_bind (condition_deep k p r d a h)

theorem parseTree_deep (env : Env) (hm : env.lower "media".toList = "media".toList) (n : Nat) :
    parseTree env n (.atKeyword "media".toList :: wrongFeatures (n + 1)) = .deep := by
  have hq : mediaQueryList env (Rec.at env n) ⟨[.atKeyword "media".toList], wrongFeatures (n + 1), 0, 0⟩ = .deep := by
    unfold mediaQueryList
    refine deep_bind ?_
    unfold forever
    refine deep_bind ?_
    have ha : atEof ⟨[.atKeyword "media".toList], wrongFeatures (n + 1), 0, 0⟩ =
      .ok false ⟨[.atKeyword "media".toList], wrongFeatures (n + 1), 0, 0⟩ := rfl
    beta_reduce
    rw [bind_ok ha, if_neg (by simp)]
    exact deep_bind (mediaQuery_deep env _ _ _ _ _ (cond_deep env 0 0 n _))
  have hp : preludeNode env (Rec.at env n) "media".toList ⟨[.atKeyword "media".toList], wrongFeatures (n + 1), 0, 0⟩ = .deep := by
    unfold preludeNode
    rw [hm]
    rw [if_neg (by decide), if_neg (by decide), if_neg (by decide), if_neg (by decide), if_neg (by decide), if_neg (by decide),
      if_pos rfl]
    exact deep_bind hq
  have h1 : skipWs ⟨[.atKeyword "media".toList], wrongFeatures (n + 1), 0, 0⟩ =
      .ok () ⟨[.atKeyword "media".toList], wrongFeatures (n + 1), 0, 0⟩ := rfl
  have hat : atRuleInternal env (Rec.at env n) false ⟨[], .atKeyword "media".toList :: wrongFeatures (n + 1), 0, 0⟩ = .deep := by
    unfold atRuleInternal
    rw [bind_ok (consume_run _ _ _ _ _)]
    simp only
    rw [bind_ok h1]
    refine deep_bind ?_
    unfold atPrelude
    rw [bind_ok h1]
    exact deep_bind hp
  have hr : sheetRound env (Rec.at env n) [] ⟨[], .atKeyword "media".toList :: wrongFeatures (n + 1), 0, 0⟩ = .deep := by
    unfold sheetRound
    rw [bind_ok (atEof_run _ _ _ _ _), if_neg (by simp), bind_ok (consume_run _ _ _ _ _)]
    simp only
    rw [bind_ok (reconsume_run _ _ _ _ _)]
    refine deep_bind ?_
    unfold atRule
    refine deep_bind ?_
    unfold attempt
    rw [hat]
  unfold parseTree sheet
  refine deep_bind ?_
  unfold forever
  exact deep_bind hr

end Verif.CssParse
