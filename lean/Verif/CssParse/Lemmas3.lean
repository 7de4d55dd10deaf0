import Verif.CssParse.Lemmas2

/-! # C109: lists of selectors, media queries, at-rules, rules and blocks -/

namespace Verif.CssParse

open Verif.CssTok (Token)

/-- `item; if consume ≠ comma { reconsume; stop }`, with `m` what stands before the comma -/
theorem good_comma {α β : Type} {m : P α} {f g : α → P β} (hm : Good m) (hf : ∀ a, Good (f a)) (hg : ∀ a, Good (g a)) :
    Good (m >>= fun a => consume >>= fun t => if t ≠ .comma then reconsume >>= fun _ => f a else g a) := by
  refine good_bind hm fun a => good_consume_bind fun t => ?_
  split
  · exact back_reconsume (hf a)
  · exact back_good (hg a)

theorem strict_comma {σ β : Type} {x : β} {g : P (σ ⊕ β)} (hg : Good g) :
    Strict Goes (consume >>= fun t => if t ≠ .comma then reconsume >>= fun _ => pure (.inr x) else g) := by
  refine strict_consume_bind (fun t ht => ?_) (by rw [if_pos (by simp)]; never)
  split
  · exact kept_never (by never)
  · exact kept_good ht hg

section
variable {env : Env} {k : Rec} (hk : k.Good)
include hk

theorem good_selectorList : Good (selectorList env k) := by
  unfold selectorList
  refine good_bind (good_loop (fun acc => ?_) (fun acc => ?_) _) fun _ => good_pure _
  · refine good_bind good_atEof fun b => ?_
    split
    · good
    · exact good_comma (good_selector hk) (fun _ => good_pure _) (fun _ => good_pure _)
  · refine strict_right good_atEof fun b => ?_
    split
    · exact strict_never (by never)
    · exact strict_right (good_selector hk) fun _ => strict_comma (good_pure _)

omit hk in
theorem good_anPlusB_b : Good (anPlusB_b env) := by
  unfold anPlusB_b; good [good_skipWs, good_expect _, good_consumeAnyNumber]

omit hk in
theorem good_expectChar (v : Str) (c : Char) (n : Nat) : Good (expectChar v c n) := by unfold expectChar; good

omit hk in
theorem good_checkInteger (v : Str) (n : Nat) : Good (checkInteger v n) := by unfold checkInteger; good

omit hk in
theorem good_dimensionBlock (v u : Str) : Good (dimensionBlock env v u) := by unfold dimensionBlock; good [good_anPlusB_b]

omit hk in
theorem good_negativeBlock (v : Str) : Good (negativeBlock env v) := by
  unfold negativeBlock; good [good_anPlusB_b, good_expectChar _ _ _, good_skipWs, good_checkInteger _ _, good_consumeAnyNumber]

omit hk in
theorem good_plusBlock (v : Str) : Good (plusBlock env v) := by
  unfold plusBlock; good [good_anPlusB_b, good_expectChar _ _ _, good_skipWs, good_checkInteger _ _, good_consumeAnyNumber]

omit hk in
theorem good_anPlusB : Good (anPlusB env) := by
  unfold anPlusB
  refine good_bind (good_consume_bind fun t => ?_) fun _ => by good
  split
  case h_3 =>
    refine back_look (by simp) (good_lookahead (by omega)) lookahead_prev fun a => ?_
    split
    · exact back_good (by good [good_consumeAnyIdent, good_plusBlock _])
    · exact back_reconsume good_fail
  all_goals good [good_consumeAnyNumber, good_negativeBlock _, good_plusBlock _, good_dimensionBlock _ _]

theorem good_pseudoNth : Good (pseudoNth env k) := by
  unfold pseudoNth; good [good_skipWs, good_anPlusB, good_selectorList hk]

omit hk in
theorem strict_consumeAnyIdent' {α : Type} {p : α → Prop} {f : Str → P α} (hf : ∀ a, Good (f a)) :
    Strict p (consumeAnyIdent >>= f) :=
  strict_left (q := fun _ => True) strict_consumeAnyIdent good_consumeAnyIdent hf (fun _ h => absurd trivial h)

omit hk in
theorem good_pseudoIdentSequence : Good pseudoIdentSequence := by
  unfold pseudoIdentSequence
  refine good_bind (good_loop (fun acc => ?_) (fun acc => ?_) _) fun _ => good_pure _
  · good [good_skipWs, good_consumeAnyIdent]
  · refine strict_right good_skipWs fun _ => strict_right (good_lookahead (by omega)) fun t => ?_
    split
    · exact strict_consumeAnyIdent' fun _ => good_pure _
    · exact strict_never (by never)

theorem good_pseudoInner (n : Str) : Good (pseudoInner env k n) := by
  unfold pseudoInner pseudoIdentList
  good [good_selectorList hk, good_pseudoNth hk, good_selector hk, good_pseudoIdentSequence, good_consumeAnyIdent]

/-! ## Media queries -/

theorem good_mediaTerm : Good (mediaTerm k) := by unfold mediaTerm; good [good_skipWs, good_function hk]

omit hk in
theorem good_mediaComparison : Good mediaComparison := by
  unfold mediaComparison; good [good_skipWs, good_consumeAnyDelim]

theorem good_mediaFeatureValue : Good (mediaFeatureValue k) := by
  unfold mediaFeatureValue; good [good_skipWs, good_function hk, good_mediaTerm hk]

theorem good_mediaFeature (kind : Kind) : Good (mediaFeature k kind) := by
  unfold mediaFeature; good [good_skipWs, good_expect _, good_consumeAnyIdent, good_mediaFeatureValue hk]

theorem good_mediaRange : Good (mediaRange k) := by
  unfold mediaRange; good [good_skipWs, good_expect _, good_mediaTerm hk, good_mediaComparison]

theorem good_mediaFeatureOrRange (kind : Kind) : Good (mediaFeatureOrRange k kind) := by
  unfold mediaFeatureOrRange; good [good_mediaFeature hk _, good_mediaRange hk]

theorem good_conditionRound (kind : Kind) (acc : List Node) : Good (conditionRound k kind acc) := by
  unfold conditionRound; good [good_mediaFeatureOrRange hk _, good_expect _]

omit hk in
theorem strict_attempt {α : Type} {f : P α} (hf : Strict (fun _ => True) f) : Strict (fun o => o.isSome = true) (attempt f) := by
  intro s a s' h ha
  unfold attempt at h
  cases e : f s <;> rw [e] at h <;> simp only at h <;> cases h
  · exact hf _ _ _ e trivial
  · simp at ha

theorem strict_mediaFeatureOrRange (kind : Kind) : Strict (fun _ => True) (mediaFeatureOrRange k kind) := by
  have hr : Strict (fun _ => True) (mediaRange k) := by
    unfold mediaRange
    exact strict_right good_skipWs fun _ => strict_left (strict_expect (by decide)) (good_expect _)
      (fun _ => by good [good_skipWs, good_expect _, good_mediaTerm hk, good_mediaComparison]) (fun _ h => absurd trivial h)
  have hf : Strict (fun _ => True) (mediaFeature k kind) := by
    unfold mediaFeature
    exact strict_left (strict_expect (by decide)) (good_expect _)
      (fun _ => by good [good_skipWs, good_expect _, good_consumeAnyIdent, good_mediaFeatureValue hk])
      (fun _ h => absurd trivial h)
  unfold mediaFeatureOrRange
  refine strict_right (good_lookaheadSc (by omega)) fun _ => strict_right (good_lookaheadSc (by omega)) fun _ => ?_
  split
  · exact hf
  · exact hr

theorem strict_conditionRound (kind : Kind) (acc : List Node) : Strict Goes (conditionRound k kind acc) := by
  unfold conditionRound
  refine strict_consume_bind (fun t ht => ?_) (by simp only; never)
  split
  case h_4 =>
    refine kept_reconsume ?_
    split
    · exact strict_never (by never)
    · refine strict_left (q := fun o => o.isSome = true) (strict_attempt (strict_mediaFeatureOrRange hk kind))
        (good_attempt (good_mediaFeatureOrRange hk kind)) (fun o => ?_) fun o ho => ?_
      · cases o <;> good [good_expect _]
      · cases o with
        | none => exact strict_never (by simp only; never)
        | some _ => simp at ho
  case h_6 => exact kept_never (by never)
  all_goals exact kept_good ht (by good)

theorem good_condition (kind : Kind) : Good (condition k kind) := by
  unfold condition
  refine good_bind (good_loop (good_conditionRound hk kind) (strict_conditionRound hk kind) _) fun _ => ?_
  good

theorem good_mediaQuery : Good (mediaQuery env k) := by
  unfold mediaQuery
  refine good_bind good_skipWs fun _ => good_consume_bind fun t => ?_
  by_cases ht : t = .eof
  · subst ht
    exact back_good (good_bind (good_lookaheadSc (by omega)) fun _ => good_fail)
  · refine back_look ht (good_lookaheadSc (by omega)) lookaheadSc_prev fun nt => ?_
    good [good_condition hk _, good_skipWs, good_consumeAnyIdent, good_consumeIdent _]

theorem good_mediaQueryList : Good (mediaQueryList env k) := by
  unfold mediaQueryList
  refine good_bind (good_loop (fun acc => ?_) (fun acc => ?_) _) fun _ => good_pure _
  · refine good_bind good_atEof fun b => ?_
    split
    · good
    · exact good_bind (good_mediaQuery hk) fun _ => good_comma good_skipWs (fun _ => good_pure _) (fun _ => good_pure _)
  · refine strict_right good_atEof fun b => ?_
    split
    · exact strict_never (by never)
    · exact strict_right (good_mediaQuery hk) fun _ => strict_right good_skipWs fun _ => strict_comma (good_pure _)

/-! ## At-rules -/

theorem good_containerPrelude : Good (containerPrelude k) := by unfold containerPrelude; good [good_condition hk _]

theorem good_customMediaPrelude : Good (customMediaPrelude env k) := by
  unfold customMediaPrelude; good [good_mediaQueryList hk, good_skipWs, good_consumeAnyIdent]

theorem good_customSelectorPrelude : Good (customSelectorPrelude env k) := by
  unfold customSelectorPrelude; good [good_selectorList hk, good_skipWs, good_consumeAnyIdent, good_expect _]

theorem good_importPrelude : Good (importPrelude k) := by
  unfold importPrelude; good [good_url, good_skipWs, good_function hk]

omit hk in
theorem good_layerQuery : Good layerQuery := by
  unfold layerQuery
  refine good_bind good_consumeAnyIdent fun _ => good_bind (good_loop (fun n => ?_) (fun n => ?_) _) fun _ => good_pure _
  · refine good_bind (good_lookahead (by omega)) fun t => ?_
    split
    · good
    · exact good_bind good_consume fun _ => by good
  · refine strict_right (good_lookahead (by omega)) fun t => ?_
    split
    · exact strict_never (by never)
    · refine strict_right good_consume fun _ => strict_consume_bind (fun t ht => ?_) (by simp only; never)
      split
      · exact kept_good ht (good_pure _)
      · exact kept_never (by never)

omit hk in
theorem good_layerPrelude : Good layerPrelude := by
  unfold layerPrelude
  refine good_bind good_skipWs fun _ => good_bind (good_loop (fun acc => ?_) (fun acc => ?_) _) fun _ => good_pure _
  · refine good_bind good_atEof fun b => ?_
    split
    · good
    · refine good_bind (good_lookahead (by omega)) fun t => ?_
      split
      · good
      · exact good_bind good_layerQuery fun _ => good_comma good_skipWs (fun _ => good_pure _)
          (fun _ => good_bind good_skipWs fun _ => good_pure _)
  · refine strict_right good_atEof fun b => ?_
    split
    · exact strict_never (by never)
    · refine strict_right (good_lookahead (by omega)) fun t => ?_
      split
      · exact strict_never (by never)
      · exact strict_right good_layerQuery fun _ => strict_right good_skipWs fun _ => strict_comma
          (good_bind good_skipWs fun _ => good_pure _)

theorem good_nestPrelude : Good (nestPrelude env k) := by
  unfold nestPrelude
  refine good_bind (good_loop (fun acc => ?_) (fun acc => ?_) _) fun _ => good_pure _
  · refine good_bind good_atEof fun b => ?_
    split
    · good
    · exact good_bind (good_selector hk) fun _ => good_comma good_skipWs (fun _ => good_pure _) (fun _ => good_pure _)
  · refine strict_right good_atEof fun b => ?_
    split
    · exact strict_never (by never)
    · exact strict_right (good_selector hk) fun _ => strict_right good_skipWs fun _ => strict_comma (good_pure _)

theorem good_scopePrelude : Good (scopePrelude env k) := by
  unfold scopePrelude; good [good_selectorList hk, good_skipWs, good_expect _, good_consumeIdent _]

omit hk in
theorem good_ite {α : Type} {c : Prop} [Decidable c] {a b : P α} (ha : Good a) (hb : Good b) : Good (if c then a else b) := by
  split <;> assumption

theorem good_preludeNode (n : Str) : Good (preludeNode env k n) := by
  unfold preludeNode supportsPrelude sequencePrelude
  dsimp only
  iterate 11 (refine good_ite ?_ ?_; rotate_left)
  all_goals good [good_containerPrelude hk, good_customMediaPrelude hk, good_customSelectorPrelude hk, good_importPrelude hk,
    good_layerPrelude, good_mediaQueryList hk, good_nestPrelude hk, good_scopePrelude hk, good_consumeRawCondition _,
    good_values hk]

theorem good_atPrelude (n : Str) : Good (atPrelude env k n) := by
  unfold atPrelude; good [good_skipWs, good_preludeNode hk _]

theorem good_atBlock (n : Str) (b : Bool) : Good (atBlock env k n b) := by
  unfold atBlock; dsimp only; good [good_declarationBlock, good_expect _]

theorem good_atRuleInternal (b : Bool) : Good (atRuleInternal env k b) := by
  unfold atRuleInternal; good [good_skipWs, good_atPrelude hk _, good_atBlock hk _ _]

theorem good_atRule (b : Bool) : Good (atRule env k b) := by
  unfold atRule; good [good_atRuleInternal hk _, good_untilRuleEnd]

/-! ## Rules and declarations -/

theorem good_ruleInternal : Good (ruleInternal env k) := by
  unfold ruleInternal; good [good_selectorList hk, good_expect _, good_skipWs]

theorem good_rule : Good (rule env k) := by
  unfold rule; good [good_ruleInternal hk, good_untilRuleEnd]

omit hk in
theorem good_important : Good important := by unfold important; good [good_consumeIdent _, good_skipWs]

theorem good_declarationInternal : Good (declarationInternal env k) := by
  unfold declarationInternal
  good [good_consumeAnyIdent, good_skipWs, good_expect _, good_values hk, good_important, good_skipCustom]

theorem good_declaration : Good (declaration env k) := by
  unfold declaration; good [good_declarationInternal hk, good_untilDeclEnd]

end

/-- a step that, at a token that is there, leaves less to read, whether it fails or not -/
def Drops {α : Type} (f : P α) : Prop :=
  ∀ s t r, s.next = t :: r → t ≠ .eof → (f s).All fun s' => phi s'.next < phi s.next

theorem drops_consume {α : Type} {f : Token → P α} (hf : ∀ t, Good (f t)) : Drops (consume >>= f) := by
  intro s t r hn ht
  rw [bind_ok (consume_cons hn)]
  refine (hf t _).mono fun s' h => ?_
  have := h.le
  rw [hn, phi_live ht]
  exact Nat.lt_succ_of_le this

theorem drops_bind {α β : Type} {m : P α} {f : α → P β} (hm : Drops m) (hf : ∀ a, Good (f a)) : Drops (m >>= f) := by
  intro s t r hn ht
  refine bind_all (hm s t r hn ht) (fun _ h => h) fun a s' h => (hf a s').mono fun _ h' => ?_
  have := h'.le
  omega

theorem drops_attempt {α : Type} {f : P α} (hf : Drops f) : Drops (attempt f) := by
  intro s t r hn ht
  have h := hf s t r hn ht
  unfold attempt
  cases e : f s <;> rw [e] at h <;> exact h

theorem attempt_err {α : Type} {f : P α} {s s' : PS} (h : f s = .err s') : attempt f s = .ok none s' := by
  unfold attempt
  rw [h]

theorem attempt_ok {α : Type} {f : P α} {s s' : PS} {a : α} (h : f s = .ok a s') : attempt f s = .ok (some a) s' := by
  unfold attempt
  rw [h]

theorem ruleEnd_len (d : Nat) (p l : List Token) : (ruleEnd d p l).2.length ≤ l.length := by
  fun_induction ruleEnd d p l <;> simp_all <;> omega

theorem declEnd_len (p l : List Token) : (declEnd p l).2.length ≤ l.length := by
  fun_induction declEnd p l <;> (simp_all; try omega)

theorem consume_reconsume {s : PS} {t : Token} {r : List Token} (h : s.next = t :: r) :
    reconsume { s with prev := t :: s.prev, next := r } = .ok () s := by
  cases s
  simp only at h
  subst h
  rfl

section
variable {env : Env} {k : Rec} (hk : k.Good)

theorem selectorRound_stop {x : SelState} {s : PS} {t : Token} {r : List Token} (h : s.next = t :: r) (ht : t = .rCurly ∨ t = .eof) :
    selectorRound env k x s = .ok (.inr x.children) s := by
  have e : atEof s = .ok false s := by simp [atEof, h]
  unfold selectorRound
  rw [bind_ok e, if_neg (by simp), bind_ok (consume_cons h), if_neg (by rcases ht with rfl | rfl <;> simp)]
  have e2 : selectorPart env k t { s with prev := t :: s.prev, next := r } = .ok none s := by
    unfold selectorPart
    rcases ht with rfl | rfl
    · exact bind_ok (consume_reconsume h)
    · exact bind_ok (consume_reconsume h)
  rw [bind_ok e2]
  rfl

theorem rounds_stop {σ β : Type} {body : σ → P (σ ⊕ β)} {x : σ} {b : β} {s s' : PS} (h : body x s = .ok (.inr b) s') :
    forever body x s = .ok b s' := by
  show rounds body (14 * s.next.length + 39 + 1) x s = _
  show (body x >>= fun r => match r with | .inl y => rounds body _ y | .inr b => pure b) s = _
  rw [bind_ok h]
  rfl

theorem selectorList_stop {s : PS} {t : Token} {r : List Token} (h : s.next = t :: r) (ht : t = .rCurly ∨ t = .eof) :
    selectorList env k s = .ok (.selectorList [.selector []]) s := by
  have e : atEof s = .ok false s := by simp [atEof, h]
  have es : selector env k s = .ok (.selector []) s := by
    unfold selector
    rw [bind_ok (rounds_stop (selectorRound_stop h ht))]
    rfl
  unfold selectorList
  rw [bind_ok (rounds_stop (b := [.selector []]) (s' := s) _)]
  · rfl
  · rw [bind_ok e, if_neg (by simp), bind_ok es, bind_ok (consume_cons h), if_pos (by rcases ht with rfl | rfl <;> simp),
      bind_ok (consume_reconsume h)]
    rfl

theorem ruleInternal_stop {s : PS} {t : Token} {r : List Token} (h : s.next = t :: r) (ht : t = .rCurly ∨ t = .eof) :
    ruleInternal env k s = .err { s with prev := t :: s.prev, next := r } := by
  unfold ruleInternal
  rw [bind_ok (selectorList_stop h ht)]
  refine bind_err ?_
  unfold expect
  rw [bind_ok (consume_cons h)]
  rcases ht with rfl | rfl <;> rfl

theorem rule_stop {s : PS} {t : Token} {r : List Token} (h : s.next = t :: r) (ht : t = .rCurly ∨ t = .eof) :
    (rule env k s).All fun s' => phi s'.next ≤ phi r ∧ s'.next.length ≤ r.length := by
  unfold rule
  rw [bind_ok (attempt_err (ruleInternal_stop h ht))]
  simp only
  split
  · exact ⟨(rem_ruleEnd 0 _ _).le, ruleEnd_len 0 _ _⟩
  · exact ⟨Nat.le_refl _, Nat.le_refl _⟩

/-- what `rule` answers with at a token that is there -/
theorem rule_live (hk : k.Good) {s : PS} {t : Token} {r : List Token} (h : s.next = t :: r) (ht : t ≠ .eof) :
    match rule env k s with
    | .ok _ s' => phi s'.next < phi s.next
    | .err s' => Rem s.next s'.next
    | .deep => True
    | .hang => False := by
  by_cases hr : t = .rCurly
  · have h1 := rule_stop (env := env) (k := k) h (.inl hr)
    have h2 := phi_live ht r
    rw [h, h2]
    cases e : rule env k s <;> rw [e] at h1 <;> simp only [Res.All] at h1 ⊢
    · omega
    · exact .inl (by omega)
  · have hl := good_selectorList (env := env) hk s
    have hg := good_rule (env := env) hk s
    cases e : rule env k s with
    | ok a s' =>
      simp only
      rw [e] at hg
      unfold rule at e
      obtain ⟨o, s1, e1, e2⟩ := bind_inv e
      cases el : selectorList env k s with
      | ok n s2 =>
        rw [el] at hl
        have hd : (ruleInternal env k s).All fun s' => phi s'.next < phi s.next := by
          unfold ruleInternal
          rw [bind_ok el]
          have hgood : Good (do
              expect .lCurly
              skipWs
              let block ← recurse (k.block .style)
              expect .rCurly
              return Node.rule (some n) (some block)) := by good [good_expect _, good_skipWs]
          rcases hl with hl | ⟨hl, hh⟩
          · refine (hgood s2).mono fun s3 h3 => ?_
            have := h3.le
            omega
          · have h4 := hh t ht (by rw [h]; rfl)
            obtain ⟨r2, hr2⟩ : ∃ r2, s2.next = t :: r2 := by
              cases hc : s2.next with
              | nil => rw [hc] at h4; cases h4
              | cons u v => rw [hc] at h4; cases h4; exact ⟨v, rfl⟩
            have hdr : Drops (do
              expect .lCurly
              skipWs
              let block ← recurse (k.block .style)
              expect .rCurly
              return Node.rule (some n) (some block)) := by
              refine drops_bind ?_ (fun _ => by good [good_expect _, good_skipWs])
              unfold expect
              exact drops_consume fun _ => by good
            refine (hdr s2 t r2 hr2 ht).mono fun s3 h3 => ?_
            omega
        unfold attempt at e1
        cases ei : ruleInternal env k s with
        | ok b s3 =>
          rw [ei] at e1 hd
          cases e1
          cases e2
          exact hd
        | err s3 =>
          rw [ei] at e1 hd
          cases e1
          simp only at e2
          split at e2
          · cases e2
            have := (rem_ruleEnd 0 s1.prev s1.next).le
            exact Nat.lt_of_le_of_lt this hd
          · cases e2
        | deep => rw [ei] at e1; cases e1
        | hang => rw [ei] at hd; exact hd.elim
      | err s2 =>
        rw [el] at hl
        have ei : ruleInternal env k s = .err s2 := bind_err el
        rw [attempt_err ei] at e1
        cases e1
        simp only at e2
        split at e2
        · cases e2
          show phi (ruleEnd 0 s1.prev s1.next).2 < _
          rcases hl with hl | ⟨hl, hh⟩
          · have := (rem_ruleEnd 0 s1.prev s1.next).le
            omega
          · have h4 := hh t ht (by rw [h]; rfl)
            cases hc : s1.next with
            | nil => rw [hc] at h4; cases h4
            | cons u v =>
              rw [hc] at h4 hl
              cases h4
              have h5 : phi (ruleEnd 0 s1.prev (t :: v)).2 ≤ phi v := by
                unfold ruleEnd
                split <;> first
                  | exact (rem_ruleEnd _ _ _).le
                  | exact absurd rfl hr
                  | exact absurd rfl ht
                  | (split <;> first | exact Nat.le_refl _ | exact (rem_ruleEnd _ _ _).le)
              have h6 := phi_live ht v
              omega
        · cases e2
      | deep =>
        have : ruleInternal env k s = .deep := by unfold ruleInternal; rw [bind_run, el]
        unfold attempt at e1
        rw [this] at e1
        cases e1
      | hang => rw [el] at hl; exact hl.elim
    | err s' => rw [e] at hg; exact hg
    | deep => trivial
    | hang => rw [e] at hg; exact hg

theorem declaration_live (hk : k.Good) : Drops (declaration env k) := by
  unfold declaration
  refine drops_bind (drops_attempt ?_) (fun _ => by good [good_untilDeclEnd])
  unfold declarationInternal
  refine drops_bind ?_ (fun _ => by good [good_skipWs, good_expect _, good_values hk, good_important, good_skipCustom])
  unfold consumeAnyIdent
  exact drops_consume fun _ => by good

theorem declaration_eof {s : PS} {r : List Token} (h : s.next = .eof :: r) :
    (declaration env k s).All fun s' => s'.next.length ≤ r.length := by
  have e : declarationInternal env k s = .err { s with prev := .eof :: s.prev, next := r } := by
    unfold declarationInternal
    refine bind_err ?_
    unfold consumeAnyIdent
    rw [bind_ok (consume_cons h)]
    rfl
  unfold declaration
  rw [bind_ok (attempt_err e)]
  simp only
  split
  · exact declEnd_len _ _
  · exact Nat.le_refl _

theorem atRule_live (hk : k.Good) (b : Bool) : Drops (atRule env k b) := by
  unfold atRule
  refine drops_bind (drops_attempt ?_) (fun _ => by good [good_untilRuleEnd])
  unfold atRuleInternal
  exact drops_consume fun _ => by good [good_skipWs, good_atPrelude hk _, good_atBlock hk _ _]

/-- what the state of the loop in a block adds: one round may only find that a semicolon is missing -/
def weight (semi : Bool) : Nat := if semi then 0 else 1

theorem blockItem_round (hk : k.Good) (mode : Mode) (c : List Node) (semi : Bool) {s : PS} {t : Token} {r : List Token}
    (h : s.next = t :: r) (ht : t ≠ .rCurly) :
    match blockItem env k mode c semi { s with prev := t :: s.prev, next := r } with
    | .ok x s' => Rem s.next s'.next ∧
        (phi s'.next < phi s.next ∨ 2 * s'.next.length + weight x.2 < 2 * s.next.length + weight semi)
    | .err s' => Rem s.next s'.next
    | .deep => True
    | .hang => False := by
  have hrule : ∀ (b : Bool), match (rule env k >>= fun n => pure (c ++ n.toList, b)) s with
      | .ok x s' => Rem s.next s'.next ∧
          (phi s'.next < phi s.next ∨ 2 * s'.next.length + weight x.2 < 2 * s.next.length + weight semi)
      | .err s' => Rem s.next s'.next
      | .deep => True
      | .hang => False := by
    intro b
    have hg := good_rule (env := env) hk s
    rw [bind_run]
    by_cases he : t = .eof
    · have h1 := rule_stop (env := env) (k := k) h (.inr he)
      cases e : rule env k s with
      | ok a s' =>
        rw [e] at h1 hg
        refine ⟨hg, .inr ?_⟩
        have h2 := h1.2
        have : weight b ≤ 1 := by unfold weight; split <;> omega
        rw [h, List.length_cons]
        show 2 * s'.next.length + weight b < _
        omega
      | err s' => rw [e] at hg; exact hg
      | deep => trivial
      | hang => rw [e] at hg; exact hg
    · have h1 := rule_live (env := env) hk h he
      cases e : rule env k s with
      | ok a s' => rw [e] at h1 hg; exact ⟨hg, .inl h1⟩
      | err s' => rw [e] at hg; exact hg
      | deep => trivial
      | hang => rw [e] at hg; exact hg
  unfold blockItem
  cases mode with
  | regular =>
    simp only
    rw [bind_ok (consume_reconsume h)]
    exact hrule false
  | style =>
    cases semi with
    | false =>
      simp only [Bool.not_false, if_true]
      cases env.ignore with
      | false =>
        show Rem s.next r
        rw [h]
        exact .tail t (Nat.le_refl _)
      | true =>
        simp only [if_true]
        rw [bind_ok (consume_reconsume h)]
        refine ⟨rem_skipEnd 0 _ _, ?_⟩
        show phi (skipEnd 0 s.prev s.next).2 < _ ∨ 2 * (skipEnd 0 s.prev s.next).2.length + 0 < _ + 1
        rw [h]
        by_cases he : t = .eof
        · subst he
          exact .inr (by simp [skipEnd])
        · refine .inl ?_
          have h5 : phi (skipEnd 0 s.prev (t :: r)).2 ≤ phi r := by
            unfold skipEnd
            split <;> first
              | exact (rem_skipEnd _ _ _).le
              | exact absurd rfl ht
              | exact absurd rfl he
              | (split <;> first | exact Nat.le_refl _ | exact (rem_skipEnd _ _ _).le)
          rw [phi_live he]
          omega
    | true =>
      simp only [Bool.not_true, Bool.false_eq_true, if_false]
      rw [bind_ok (consume_reconsume h)]
      obtain ⟨s1, b, e1, hn, he1⟩ : ∃ s1 b, startsNested s = .ok b s1 ∧ (∃ q, s1.next = t :: q) ∧ (t = .eof → b = false ∧ s1 = s) := by
        refine ⟨_, _, rfl, ?_, ?_⟩
        · simp only
          split
          · exact ⟨r ++ [.eof], by rw [h]; rfl⟩
          · exact ⟨r, h⟩
        · intro he
          subst he
          have : scanNested 0 s.next = (false, false) := by rw [h]; rfl
          rw [this]
          exact ⟨rfl, rfl⟩
      rw [bind_ok e1]
      have hg := good_startsNested s
      rw [e1] at hg
      obtain ⟨q, hq⟩ := hn
      by_cases he : t = .eof
      · obtain ⟨rfl, rfl⟩ := he1 he
        subst he
        simp only [Bool.false_eq_true, if_false]
        have h1 := declaration_eof (env := env) (k := k) h
        have h2 := good_declaration (env := env) hk s1
        rw [bind_run]
        cases e : declaration env k s1 with
        | ok a s' =>
          rw [e] at h1 h2
          refine ⟨h2, .inr ?_⟩
          show 2 * s'.next.length + 1 < _ + 0
          rw [h, List.length_cons]
          have h3 : s'.next.length ≤ r.length := h1
          omega
        | err s' => rw [e] at h2; exact h2
        | deep => trivial
        | hang => rw [e] at h2; exact h2
      · cases b with
        | true =>
          simp only [if_true]
          rw [bind_run]
          have h1 := rule_live (env := env) hk hq he
          cases e : rule env k s1 with
          | ok a s' =>
            rw [e] at h1
            have h4 := Nat.lt_of_lt_of_le h1 hg.le
            exact ⟨.inl h4, .inl h4⟩
          | err s' => rw [e] at h1; exact Rem.trans hg h1
          | deep => trivial
          | hang => rw [e] at h1; exact h1
        | false =>
          simp only [Bool.false_eq_true, if_false]
          rw [bind_run]
          have h1 := declaration_live (env := env) hk s1 t q hq he
          cases e : declaration env k s1 with
          | ok a s' =>
            rw [e] at h1
            have h4 := Nat.lt_of_lt_of_le h1 hg.le
            exact ⟨.inl h4, .inl h4⟩
          | err s' => rw [e] at h1; exact .inl (Nat.lt_of_lt_of_le h1 hg.le)
          | deep => trivial
          | hang => rw [e] at h1; exact h1

/-- what a round of a loop has to end with -/
def After {σ β : Type} (w : σ → Nat) (x : σ) (s : PS) (f : Res (σ ⊕ β)) : Prop :=
  match f with
  | .ok (.inl y) s' => Rem s.next s'.next ∧
      (phi s'.next < phi s.next ∨ 2 * s'.next.length + w y < 2 * s.next.length + w x)
  | .ok (.inr _) s' => Rem s.next s'.next
  | .err s' => Rem s.next s'.next
  | .deep => True
  | .hang => False

theorem round_blockRound (hk : k.Good) (mode : Mode) (x : List Node × Bool) :
    Round (fun y => weight y.2) x (blockRound env k mode x) := by
  intro s
  show After _ x s (blockRound env k mode x s)
  unfold blockRound
  cases h : s.next with
  | nil =>
    have e : atEof s = .ok true s := by simp [atEof, h]
    rw [bind_ok e]
    exact Rem.refl _
  | cons t r =>
    have e : atEof s = .ok false s := by simp [atEof, h]
    rw [bind_ok e, if_neg (by simp), bind_ok (consume_cons h)]
    have adv : t ≠ .eof → phi r < phi s.next := fun ht => by rw [h, phi_live ht]; exact Nat.lt_succ_self _
    split
    · rw [bind_ok (consume_reconsume h)]
      exact Rem.refl _
    · exact ⟨.inl (adv (by simp)), .inl (adv (by simp))⟩
    · rename_i v
      rw [bind_ok (consume_reconsume h), bind_run]
      have h1 := atRule_live (env := env) hk (decide (mode = .style)) s _ _ h (by simp)
      cases e : atRule env k (decide (mode = .style)) s with
      | ok a s' => rw [e] at h1; exact ⟨.inl h1, .inl h1⟩
      | err s' => rw [e] at h1; exact .inl h1
      | deep => trivial
      | hang => rw [e] at h1; exact h1
    · exact ⟨.inl (adv (by simp)), .inl (adv (by simp))⟩
    · rename_i h1 _ _ _
      have h2 := blockItem_round (env := env) hk mode x.1 x.2 h (fun e => h1 e)
      rw [bind_run]
      cases e : blockItem env k mode x.1 x.2 { s with prev := t :: s.prev, next := r } with
      | ok a s' => rw [e] at h2; exact h2
      | err s' => rw [e] at h2; exact h2
      | deep => trivial
      | hang => rw [e] at h2; exact h2

theorem good_blockInner (hk : k.Good) (mode : Mode) : Good (blockInner env k mode) := by
  unfold blockInner
  exact good_bind (good_forever (fun y => weight y.2) (fun y => by unfold weight; split <;> omega)
    (round_blockRound hk mode) _) fun _ => good_pure _

theorem round_sheetRound (hk : k.Good) (acc : List Node) : Round (fun _ => 0) acc (sheetRound env k acc) := by
  intro s
  show After _ acc s (sheetRound env k acc s)
  unfold sheetRound
  cases h : s.next with
  | nil =>
    have e : atEof s = .ok true s := by simp [atEof, h]
    rw [bind_ok e]
    exact Rem.refl _
  | cons t r =>
    have e : atEof s = .ok false s := by simp [atEof, h]
    rw [bind_ok e, if_neg (by simp), bind_ok (consume_cons h)]
    have adv : t ≠ .eof → phi r < phi s.next := fun ht => by rw [h, phi_live ht]; exact Nat.lt_succ_self _
    split
    · refine ⟨?_, .inr ?_⟩
      · rw [h]
        exact .tail _ (Nat.le_refl _)
      · rw [h, List.length_cons]
        show 2 * r.length + 0 < _
        omega
    · exact ⟨.inl (adv (by simp)), .inl (adv (by simp))⟩
    · exact ⟨.inl (adv (by simp)), .inl (adv (by simp))⟩
    · exact ⟨.inl (adv (by simp)), .inl (adv (by simp))⟩
    · rw [bind_ok (consume_reconsume h), bind_run]
      have h1 := atRule_live (env := env) hk false s _ _ h (by simp)
      cases e : atRule env k false s with
      | ok a s' => rw [e] at h1; exact ⟨.inl h1, .inl h1⟩
      | err s' => rw [e] at h1; exact .inl h1
      | deep => trivial
      | hang => rw [e] at h1; exact h1
    · rename_i h1 _ _ _ _
      rw [bind_ok (consume_reconsume h), bind_run]
      have h2 := rule_live (env := env) hk h (fun e => h1 e)
      cases e : rule env k s with
      | ok a s' => rw [e] at h2; exact ⟨.inl h2, .inl h2⟩
      | err s' => rw [e] at h2; exact h2
      | deep => trivial
      | hang => rw [e] at h2; exact h2

theorem good_sheet (hk : k.Good) : Good (sheet env k) := by
  unfold sheet
  refine good_bind (good_forever (fun _ => 0) (fun _ => by omega) (round_sheetRound hk) _) fun _ => ?_
  good

theorem good_level (hk : k.Good) : (level env k).Good where
  block := good_blockInner hk
  args := good_values hk
  expr := good_calcExpr hk
  pseudo := good_pseudoInner hk
  cond := good_condition hk

end

/-- C109: whatever the depth of the stack -/
theorem good_at (env : Env) : ∀ d, (Rec.at env d).Good
  | 0 => ⟨fun _ _ => trivial, fun _ => trivial, fun _ => trivial, fun _ _ => trivial, fun _ _ => trivial⟩
  | d + 1 => good_level (good_at env d)

theorem parseTree_ends (env : Env) (d : Nat) (ts : List Token) : parseTree env d ts ≠ .hang := by
  intro h
  have := good_sheet (env := env) (good_at env d) (PS.new ts)
  unfold parseTree at h
  rw [h] at this
  exact this

end Verif.CssParse
