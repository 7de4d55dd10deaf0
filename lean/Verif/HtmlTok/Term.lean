import Verif.HtmlTok.Lemmas
import Mathlib.Tactic.SplitIfs

/-!
# The tokenizer ends: a measure that every step lowers
-/

namespace Verif.HtmlTok

/-- how many more steps a state may take without reading -/
def rank : State → Str → Nat
  | .data, _ | .rcdata, _ | .rawtext, _ | .scriptData, _ | .plaintext, _ => 4
  | .attributeName, [] => 30
  | .attributeName, c :: _ => if isWs c || c = '/' || c = '>' then 30 else 15
  | .afterAttributeName, _ => 20
  | .beforeAttributeName, _ => 40
  | .afterAttributeValueQuoted, _ | .selfClosingStart, _ => 50
  | .attributeValueUnquoted, _ => 10
  | .beforeAttributeValue, _ => 20
  | .tagName, _ => 20
  | .tagOpen, _ | .endTagOpen, _ => 30
  | .scriptDataEscaped, _ | .scriptDataDoubleEscaped, _ => 10
  | .rcdataEndTagName, _ | .rawtextEndTagName, _ | .scriptDataEndTagName, _ | .scriptDataEscapedEndTagName, _ => 20
  | .rcdataEndTagOpen, _ | .rawtextEndTagOpen, _ | .scriptDataEscapedEndTagOpen, _ => 30
  | .scriptDataEscapedLessThanSign, _ => 30
  | .comment, _ | .bogusComment, _ | .bogusDoctype, _ | .cdataSection, _ => 10
  | .commentLessThanSignBangDash, _ | .commentLessThanSignBangDashDash, _ | .doctype, _ => 30
  | _, _ => 20

/-- the measure of a tokenizer -/
def mu (t : Tok) : Nat :=
  if t.queue = [] then 100 * t.rest.length + rank t.state t.rest
  else if .eof ∈ t.queue then t.queue.length
  else 100 * t.rest.length + 4 + t.queue.length

theorem rank_le (s : State) (r : Str) : rank s r ≤ 50 := by
  unfold rank
  split <;> first | omega | (split <;> omega)

theorem rank_ge (s : State) (r : Str) : 4 ≤ rank s r := by
  unfold rank
  split <;> first | omega | (split <;> omega)

/-- the queue after a step -/
def Emitted (t : Tok) : Prop := t.queue = [] ∨ ∃ s k, t.queue = (if s = [] then [] else [.text s]) ++ [k]

theorem Emitted.le {t : Tok} (h : Emitted t) (hr : rank t.state t.rest = 4) : mu t ≤ 100 * t.rest.length + 6 := by
  unfold mu
  rcases h with h | ⟨s, k, h⟩
  · rw [if_pos h]; omega
  · by_cases hs : s = [] <;> simp only [hs, if_true, if_false, List.nil_append] at h <;> rw [h] <;> simp <;> split <;> omega

/-- something was read -/
theorem mu_read {t t' : Tok} (hq : t.queue = []) (hl : t'.rest.length < t.rest.length) (h : Emitted t') : mu t' < mu t := by
  have h1 : mu t' ≤ 100 * t'.rest.length + 50 := by
    unfold mu
    rcases h with h | ⟨s, k, h⟩
    · rw [if_pos h]; have := rank_le t'.state t'.rest; omega
    · by_cases hs : s = [] <;> simp only [hs, if_true, if_false, List.nil_append] at h <;> rw [h] <;> simp <;> split <;> omega
  have h2 : mu t = 100 * t.rest.length + rank t.state t.rest := by simp [mu, hq]
  omega

/-- nothing was read, and nothing handed out -/
theorem mu_state {t t' : Tok} (hq : t.queue = []) (hr : t'.rest = t.rest) (hq' : t'.queue = [])
    (h : rank t'.state t.rest < rank t.state t.rest) : mu t' < mu t := by
  simp only [mu, hq, hq', if_true, hr]
  omega

/-- nothing was read, a token handed out -/
theorem mu_emit {t t' : Tok} (hq : t.queue = []) (hr : t'.rest = t.rest) (h : Emitted t') (hs : rank t'.state t'.rest = 4)
    (h' : 6 < rank t.state t.rest) : mu t' < mu t := by
  have := h.le hs
  have h2 : mu t = 100 * t.rest.length + rank t.state t.rest := by simp [mu, hq]
  rw [hr] at this
  omega

theorem mu_eof {t : Tok} (hq : t.queue = []) : mu (t.emit .eof) < mu t := by
  have h2 : mu t = 100 * t.rest.length + rank t.state t.rest := by simp [mu, hq]
  have := rank_ge t.state t.rest
  have h1 : mu (t.emit .eof) ≤ 2 := by
    unfold mu
    simp only [Tok.emit, hq]
    by_cases hc : t.consumed = [] <;> simp [hc]
  omega

/-! ## what the helpers leave alone -/

section
variable (t : Tok)

@[simp] theorem addValue_rest (s : Str) : (t.addValue s).rest = t.rest := by unfold Tok.addValue; split <;> rfl
@[simp] theorem addValue_queue (s : Str) : (t.addValue s).queue = t.queue := by unfold Tok.addValue; split <;> rfl
@[simp] theorem addValue_state (s : Str) : (t.addValue s).state = t.state := by unfold Tok.addValue; split <;> rfl
@[simp] theorem setPub_rest : t.setPub.rest = t.rest := by unfold Tok.setPub; split <;> rfl
@[simp] theorem setPub_queue : t.setPub.queue = t.queue := by unfold Tok.setPub; split <;> rfl
@[simp] theorem addPub_queue (c : Char) : (t.addPub c).queue = t.queue := by unfold Tok.addPub; split <;> rfl
@[simp] theorem setSys_rest : t.setSys.rest = t.rest := by unfold Tok.setSys; split <;> rfl
@[simp] theorem setSys_queue : t.setSys.queue = t.queue := by unfold Tok.setSys; split <;> rfl
@[simp] theorem addSys_queue (c : Char) : (t.addSys c).queue = t.queue := by unfold Tok.addSys; split <;> rfl
@[simp] theorem addName_queue (c : Char) : (t.addName c).queue = t.queue := by unfold Tok.addName; split <;> rfl
@[simp] theorem setSelfClosing_queue : t.setSelfClosing.queue = t.queue := by unfold Tok.setSelfClosing; split <;> rfl
@[simp] theorem setQuirks_rest : t.setQuirks.rest = t.rest := by unfold Tok.setQuirks; split <;> rfl
@[simp] theorem setQuirks_queue : t.setQuirks.queue = t.queue := by unfold Tok.setQuirks; split <;> rfl
@[simp] theorem setQuirks_state : t.setQuirks.state = t.state := by unfold Tok.setQuirks; split <;> rfl
@[simp] theorem storeAttr_rest : t.storeAttr.rest = t.rest := rfl
@[simp] theorem storeAttr_queue : t.storeAttr.queue = t.queue := rfl
@[simp] theorem storeAttr_state : t.storeAttr.state = t.state := rfl
@[simp] theorem addStored_rest : t.addStored.rest = t.rest := by
  unfold Tok.addStored; split
  · rfl
  · split <;> rfl
@[simp] theorem addStored_queue : t.addStored.queue = t.queue := by
  unfold Tok.addStored; split
  · rfl
  · split <;> rfl
@[simp] theorem addStored_state : t.addStored.state = t.state := by
  unfold Tok.addStored; split
  · rfl
  · split <;> rfl
@[simp] theorem emitCur_rest : t.emitCur.rest = t.rest := by unfold Tok.emitCur; split <;> rfl
@[simp] theorem emitCur_state : t.emitCur.state = t.state := by unfold Tok.emitCur; split <;> rfl
@[simp] theorem finishTag_rest : t.finishTag.rest = t.rest := by simp [Tok.finishTag]
@[simp] theorem finishTag_state : t.finishTag.state = t.state := by simp [Tok.finishTag]
@[simp] theorem brokenDoctype_rest : t.brokenDoctype.rest = t.rest := by simp [Tok.brokenDoctype]
@[simp] theorem brokenDoctype_state : t.brokenDoctype.state = .data := rfl
@[simp] theorem namelessDoctype_rest : t.namelessDoctype.rest = t.rest := rfl
@[simp] theorem namelessDoctype_state : t.namelessDoctype.state = .data := rfl

end

theorem emit_emitted {t : Tok} (h : t.queue = []) (k : Token) : Emitted (t.emit k) :=
  .inr ⟨t.consumed, k, by simp [Tok.emit, h]⟩

theorem emitCur_emitted {t : Tok} (h : t.queue = []) : Emitted t.emitCur := by
  unfold Tok.emitCur
  split
  · exact emit_emitted (t := { t with cur := none }) h _
  · exact .inl h

theorem finishTag_emitted {t : Tok} (h : t.queue = []) : Emitted t.finishTag :=
  emitCur_emitted (by simp [h])

theorem brokenDoctype_emitted {t : Tok} (h : t.queue = []) : Emitted t.brokenDoctype :=
  emitCur_emitted (t := t.setQuirks) (by simp [h])

theorem namelessDoctype_emitted {t : Tok} (h : t.queue = []) : Emitted t.namelessDoctype :=
  emit_emitted h _

theorem Emitted.of_queue {t t' : Tok} (h : Emitted t) (hq : t'.queue = t.queue) : Emitted t' := by
  unfold Emitted; rw [hq]; exact h

theorem ref_le {T : List (Str × Str)} {attr : Bool} {text out r : Str} (h : CharRef.Ref T attr text out r) :
    r.length ≤ text.length := by
  have hd : ∀ (s : Str), (CharRef.dropSemi s).length ≤ s.length := by
    intro s
    unfold CharRef.dropSemi
    split <;> simp
  cases h with
  | @decimal _ r => have := hd r; simp; omega
  | @hexadecimal _ _ r => have := hd r; simp; omega
  | noDigits => simp
  | noHexDigits => simp only [List.length_cons]; omega
  | named => simp
  | exempt => simp
  | unknown => simp
  | literal => exact Nat.le_refl _

theorem charRef_rest {env : Env} (hT : CharRef.TableOk env.names) (attr : Bool) (t : Tok) :
    (t.charRef env attr).rest.length ≤ t.rest.length := by
  obtain ⟨o, r, hR, h1, _, _⟩ := CharRef.C51_reference env.names hT attr ⟨t.rest, t.consumed, t.attrValue⟩
  simp only [Tok.charRef, h1]
  exact ref_le hR

/-! ## every step lowers the measure -/

set_option hygiene false in
macro "mu_fin" : tactic => `(tactic| first
  | exact mu_eof rfl
  | (refine mu_read rfl ?_ (emitCur_emitted rfl); simp [Tok.adv]; done)
  | (refine mu_read rfl ?_ (finishTag_emitted rfl); simp [Tok.adv]; done)
  | (refine mu_read rfl ?_ (finishTag_emitted ?_) <;> (simp [Tok.adv]; done))
  | (refine mu_read rfl ?_ (brokenDoctype_emitted rfl); simp [Tok.adv]; done)
  | (refine mu_read rfl ?_ (namelessDoctype_emitted rfl); simp [Tok.adv]; done)
  | (refine mu_read rfl ?_ ((emitCur_emitted rfl).of_queue rfl); simp [Tok.adv]; done)
  | (refine mu_emit rfl ?_ ((emitCur_emitted rfl).of_queue rfl) rfl ?_ <;> (simp [rank]; done))
  | (refine mu_emit rfl ?_ (brokenDoctype_emitted rfl) rfl ?_ <;> (simp [rank]; done))
  | (refine mu_emit rfl ?_ (namelessDoctype_emitted rfl) rfl ?_ <;> (simp [rank]; done))
  | (refine mu_read rfl ?_ (.inl ?_) <;> (simp [Tok.adv, Tok.consume]; done))
  | (refine mu_state rfl ?_ ?_ ?_ <;> (simp_all [rank, Tok.goto, Tok.consume]; done)))

/-- steps in state `s` lower the measure -/
def Low (env : Env) (s : State) : Prop := ∀ (f : Bool) (t : Tok), t.queue = [] → t.state = s → mu (step env f t) < mu t

set_option hygiene false in
macro "mu_start" : tactic => `(tactic| (
  rintro f ⟨rest, s, consumed, an, av, as, cur, tmp, queue, ls⟩ hq hs
  simp only at hq hs
  subst hq hs))

set_option hygiene false in
macro "mu_simple" : tactic => `(tactic| (
  mu_start
  simp only [step]
  try simp only [Tok.endTagOpenIn, Tok.endTagNameIn, Tok.doctypeId, Tok.startDoctype, Tok.transitionTo]
  cases rest with
  | nil => dsimp only; mu_fin
  | cons c r => dsimp only; split_ifs <;> mu_fin))

variable (env : Env)

theorem mu_afterAttributeName : Low env .afterAttributeName := by mu_simple
theorem mu_afterAttributeValueQuoted : Low env .afterAttributeValueQuoted := by mu_simple
theorem mu_afterDoctypePublicIdentifier : Low env .afterDoctypePublicIdentifier := by mu_simple
theorem mu_afterDoctypePublicKeyword : Low env .afterDoctypePublicKeyword := by mu_simple
theorem mu_afterDoctypeSystemIdentifier : Low env .afterDoctypeSystemIdentifier := by mu_simple
theorem mu_afterDoctypeSystemKeyword : Low env .afterDoctypeSystemKeyword := by mu_simple
theorem mu_attributeName : Low env .attributeName := by mu_simple
theorem mu_beforeAttributeName : Low env .beforeAttributeName := by mu_simple
theorem mu_beforeAttributeValue : Low env .beforeAttributeValue := by mu_simple
theorem mu_beforeDoctypeName : Low env .beforeDoctypeName := by mu_simple
theorem mu_beforeDoctypePublicIdentifier : Low env .beforeDoctypePublicIdentifier := by mu_simple
theorem mu_beforeDoctypeSystemIdentifier : Low env .beforeDoctypeSystemIdentifier := by mu_simple
theorem mu_betweenDoctypePublicAndSystemIdentifiers : Low env .betweenDoctypePublicAndSystemIdentifiers := by mu_simple
theorem mu_bogusComment : Low env .bogusComment := by mu_simple
theorem mu_bogusDoctype : Low env .bogusDoctype := by mu_simple
theorem mu_cdataSection : Low env .cdataSection := by mu_simple
theorem mu_cdataSectionBracket : Low env .cdataSectionBracket := by mu_simple
theorem mu_cdataSectionEnd : Low env .cdataSectionEnd := by mu_simple
theorem mu_comment : Low env .comment := by mu_simple
theorem mu_commentEnd : Low env .commentEnd := by mu_simple
theorem mu_commentEndBang : Low env .commentEndBang := by mu_simple
theorem mu_commentEndDash : Low env .commentEndDash := by mu_simple
theorem mu_commentLessThanSign : Low env .commentLessThanSign := by mu_simple
theorem mu_commentLessThanSignBang : Low env .commentLessThanSignBang := by mu_simple
theorem mu_commentLessThanSignBangDash : Low env .commentLessThanSignBangDash := by mu_simple
theorem mu_commentStart : Low env .commentStart := by mu_simple
theorem mu_commentStartDash : Low env .commentStartDash := by mu_simple
theorem mu_data : Low env .data := by mu_simple
theorem mu_doctype : Low env .doctype := by mu_simple
theorem mu_doctypeName : Low env .doctypeName := by mu_simple
theorem mu_doctypePublicIdentifierDoubleQuoted : Low env .doctypePublicIdentifierDoubleQuoted := by mu_simple
theorem mu_doctypePublicIdentifierSingleQuoted : Low env .doctypePublicIdentifierSingleQuoted := by mu_simple
theorem mu_doctypeSystemIdentifierDoubleQuoted : Low env .doctypeSystemIdentifierDoubleQuoted := by mu_simple
theorem mu_doctypeSystemIdentifierSingleQuoted : Low env .doctypeSystemIdentifierSingleQuoted := by mu_simple
theorem mu_endTagOpen : Low env .endTagOpen := by mu_simple
theorem mu_plaintext : Low env .plaintext := by mu_simple
theorem mu_rawtext : Low env .rawtext := by mu_simple
theorem mu_rawtextEndTagName : Low env .rawtextEndTagName := by mu_simple
theorem mu_rawtextEndTagOpen : Low env .rawtextEndTagOpen := by mu_simple
theorem mu_rawtextLessThanSign : Low env .rawtextLessThanSign := by mu_simple
theorem mu_rcdata : Low env .rcdata := by mu_simple
theorem mu_rcdataEndTagName : Low env .rcdataEndTagName := by mu_simple
theorem mu_rcdataEndTagOpen : Low env .rcdataEndTagOpen := by mu_simple
theorem mu_rcdataLessThanSign : Low env .rcdataLessThanSign := by mu_simple
theorem mu_scriptData : Low env .scriptData := by mu_simple
theorem mu_scriptDataDoubleEscaped : Low env .scriptDataDoubleEscaped := by mu_simple
theorem mu_scriptDataDoubleEscapedDash : Low env .scriptDataDoubleEscapedDash := by mu_simple
theorem mu_scriptDataDoubleEscapedDashDash : Low env .scriptDataDoubleEscapedDashDash := by mu_simple
theorem mu_scriptDataDoubleEscapedLessThanSign : Low env .scriptDataDoubleEscapedLessThanSign := by mu_simple
theorem mu_scriptDataDoubleEscapeEnd : Low env .scriptDataDoubleEscapeEnd := by mu_simple
theorem mu_scriptDataDoubleEscapeStart : Low env .scriptDataDoubleEscapeStart := by mu_simple
theorem mu_scriptDataEndTagName : Low env .scriptDataEndTagName := by mu_simple
theorem mu_scriptDataEndTagOpen : Low env .scriptDataEndTagOpen := by mu_simple
theorem mu_scriptDataEscaped : Low env .scriptDataEscaped := by mu_simple
theorem mu_scriptDataEscapedDash : Low env .scriptDataEscapedDash := by mu_simple
theorem mu_scriptDataEscapedDashDash : Low env .scriptDataEscapedDashDash := by mu_simple
theorem mu_scriptDataEscapedEndTagName : Low env .scriptDataEscapedEndTagName := by mu_simple
theorem mu_scriptDataEscapedEndTagOpen : Low env .scriptDataEscapedEndTagOpen := by mu_simple
theorem mu_scriptDataEscapedLessThanSign : Low env .scriptDataEscapedLessThanSign := by mu_simple
theorem mu_scriptDataEscapeStart : Low env .scriptDataEscapeStart := by mu_simple
theorem mu_scriptDataEscapeStartDash : Low env .scriptDataEscapeStartDash := by mu_simple
theorem mu_scriptDataLessThanSign : Low env .scriptDataLessThanSign := by mu_simple
theorem mu_selfClosingStart : Low env .selfClosingStart := by mu_simple
theorem mu_tagName : Low env .tagName := by mu_simple
theorem mu_tagOpen : Low env .tagOpen := by mu_simple

theorem mu_commentLessThanSignBangDashDash : Low env .commentLessThanSignBangDashDash := by
  mu_start
  simp only [step]
  mu_fin

theorem mu_characterReferenceInAttributeValue : Low env .characterReferenceInAttributeValue := by
  mu_start
  exact mu_eof rfl

theorem mu_afterDoctypeName : Low env .afterDoctypeName := by
  mu_start
  simp only [step, Tok.afterDoctypeNameKeyword]
  cases rest with
  | nil => dsimp only; mu_fin
  | cons c r =>
    dsimp only
    split_ifs <;> first
      | mu_fin
      | (refine mu_read rfl ?_ (.inl rfl); simp [Tok.adv]; omega)

theorem ahead_nonempty (kw : Str) (s : Str) (h : env.ahead kw s = true) (hk : kw.head? = some 'D') : s ≠ [] := by
  rintro rfl
  cases kw with
  | nil => simp at hk
  | cons k kw =>
    simp only [List.head?_cons, Option.some.injEq] at hk
    subst hk
    simp only [Env.ahead, slice, List.take_nil, List.nil_append, List.length_nil, Nat.sub_zero, List.length_cons,
      List.replicate_succ, List.flatMap_cons, decide_eq_true_eq] at h
    have h0 : env.up (Char.ofNat 0) = [Char.ofNat 0] := rfl
    rw [h0] at h
    simp at h

theorem mu_markupDeclarationOpen : Low env .markupDeclarationOpen := by
  mu_start
  simp only [step, Tok.markupDeclaration]
  have hdrop : ∀ n, rest ≠ [] → (rest.drop (n + 1)).length < rest.length := by
    intro n h
    have := List.length_pos_iff.2 h
    rw [List.length_drop]; omega
  have hne : ∀ {n : Nat} {w : Str}, slice n rest = w → w.head? ≠ some (Char.ofNat 0) → w ≠ [] → rest ≠ [] := by
    rintro n w h hh hw rfl
    subst h
    cases n with
    | zero => exact hw rfl
    | succ n => exact hh (by simp [slice, List.replicate_succ])
  split_ifs with h1 h2 h3 h4
  · exact mu_read rfl (hdrop 1 (hne h1 (by decide) (by decide))) (.inl rfl)
  · exact mu_read rfl (hdrop 6 (ahead_nonempty env _ _ h2 (by decide))) (.inl rfl)
  · exact mu_read rfl (hdrop 6 (hne h3 (by decide) (by decide))) (.inl rfl)
  · exact mu_read rfl (hdrop 6 (hne h3 (by decide) (by decide))) (.inl rfl)
  · mu_fin

variable {env}

theorem mu_charRef {t t' : Tok} (hq : t.queue = []) (hq' : t'.queue = []) (hl : t'.rest.length ≤ t.rest.length)
    (h : rank t'.state t'.rest = 4) (h' : 4 < rank t.state t.rest) : mu t' < mu t := by
  simp only [mu, hq, hq', if_true]
  omega

theorem mu_characterReferenceInData (hT : CharRef.TableOk env.names) : Low env .characterReferenceInData := by
  mu_start
  exact mu_charRef rfl rfl (charRef_rest hT false _) rfl (by simp [rank])

theorem mu_characterReferenceInRcData (hT : CharRef.TableOk env.names) : Low env .characterReferenceInRcData := by
  mu_start
  exact mu_charRef rfl rfl (charRef_rest hT false _) rfl (by simp [rank])

theorem mu_value {t : Tok} {c : Char} {r : Str} (hT : CharRef.TableOk env.names) (hq : t.queue = []) (hr : t.rest = c :: r) :
    mu (Tok.charRef env true { t with rest := r }) < mu t := by
  refine mu_read hq ?_ (.inl hq)
  have := charRef_rest hT true { t with rest := r }
  simp only at this
  rw [hr]
  simp only [List.length_cons]
  omega

set_option hygiene false in
macro "mu_val" : tactic => `(tactic| (
  mu_start
  simp only [step]
  cases rest with
  | nil => dsimp only; mu_fin
  | cons c r =>
    dsimp only
    split_ifs <;> first
      | exact mu_value (t := ⟨c :: r, _, _, _, _, _, _, _, _, _⟩) hT rfl rfl
      | mu_fin))

theorem mu_attributeValueDoubleQuoted (hT : CharRef.TableOk env.names) : Low env .attributeValueDoubleQuoted := by mu_val
theorem mu_attributeValueSingleQuoted (hT : CharRef.TableOk env.names) : Low env .attributeValueSingleQuoted := by mu_val
theorem mu_attributeValueUnquoted (hT : CharRef.TableOk env.names) : Low env .attributeValueUnquoted := by mu_val

theorem step_mu (hT : CharRef.TableOk env.names) (s : State) : Low env s := by
  cases s with
  | afterAttributeName => exact mu_afterAttributeName env
  | afterAttributeValueQuoted => exact mu_afterAttributeValueQuoted env
  | afterDoctypeName => exact mu_afterDoctypeName env
  | afterDoctypePublicIdentifier => exact mu_afterDoctypePublicIdentifier env
  | afterDoctypePublicKeyword => exact mu_afterDoctypePublicKeyword env
  | afterDoctypeSystemIdentifier => exact mu_afterDoctypeSystemIdentifier env
  | afterDoctypeSystemKeyword => exact mu_afterDoctypeSystemKeyword env
  | attributeName => exact mu_attributeName env
  | attributeValueDoubleQuoted => exact mu_attributeValueDoubleQuoted hT
  | attributeValueSingleQuoted => exact mu_attributeValueSingleQuoted hT
  | attributeValueUnquoted => exact mu_attributeValueUnquoted hT
  | beforeAttributeName => exact mu_beforeAttributeName env
  | beforeAttributeValue => exact mu_beforeAttributeValue env
  | beforeDoctypeName => exact mu_beforeDoctypeName env
  | beforeDoctypePublicIdentifier => exact mu_beforeDoctypePublicIdentifier env
  | beforeDoctypeSystemIdentifier => exact mu_beforeDoctypeSystemIdentifier env
  | betweenDoctypePublicAndSystemIdentifiers => exact mu_betweenDoctypePublicAndSystemIdentifiers env
  | bogusComment => exact mu_bogusComment env
  | bogusDoctype => exact mu_bogusDoctype env
  | cdataSection => exact mu_cdataSection env
  | cdataSectionBracket => exact mu_cdataSectionBracket env
  | cdataSectionEnd => exact mu_cdataSectionEnd env
  | characterReferenceInAttributeValue => exact mu_characterReferenceInAttributeValue env
  | characterReferenceInData => exact mu_characterReferenceInData hT
  | characterReferenceInRcData => exact mu_characterReferenceInRcData hT
  | comment => exact mu_comment env
  | commentEnd => exact mu_commentEnd env
  | commentEndBang => exact mu_commentEndBang env
  | commentEndDash => exact mu_commentEndDash env
  | commentLessThanSign => exact mu_commentLessThanSign env
  | commentLessThanSignBang => exact mu_commentLessThanSignBang env
  | commentLessThanSignBangDash => exact mu_commentLessThanSignBangDash env
  | commentLessThanSignBangDashDash => exact mu_commentLessThanSignBangDashDash env
  | commentStart => exact mu_commentStart env
  | commentStartDash => exact mu_commentStartDash env
  | data => exact mu_data env
  | doctype => exact mu_doctype env
  | doctypeName => exact mu_doctypeName env
  | doctypePublicIdentifierDoubleQuoted => exact mu_doctypePublicIdentifierDoubleQuoted env
  | doctypePublicIdentifierSingleQuoted => exact mu_doctypePublicIdentifierSingleQuoted env
  | doctypeSystemIdentifierDoubleQuoted => exact mu_doctypeSystemIdentifierDoubleQuoted env
  | doctypeSystemIdentifierSingleQuoted => exact mu_doctypeSystemIdentifierSingleQuoted env
  | endTagOpen => exact mu_endTagOpen env
  | markupDeclarationOpen => exact mu_markupDeclarationOpen env
  | plaintext => exact mu_plaintext env
  | rawtext => exact mu_rawtext env
  | rawtextEndTagName => exact mu_rawtextEndTagName env
  | rawtextEndTagOpen => exact mu_rawtextEndTagOpen env
  | rawtextLessThanSign => exact mu_rawtextLessThanSign env
  | rcdata => exact mu_rcdata env
  | rcdataEndTagName => exact mu_rcdataEndTagName env
  | rcdataEndTagOpen => exact mu_rcdataEndTagOpen env
  | rcdataLessThanSign => exact mu_rcdataLessThanSign env
  | scriptData => exact mu_scriptData env
  | scriptDataDoubleEscaped => exact mu_scriptDataDoubleEscaped env
  | scriptDataDoubleEscapedDash => exact mu_scriptDataDoubleEscapedDash env
  | scriptDataDoubleEscapedDashDash => exact mu_scriptDataDoubleEscapedDashDash env
  | scriptDataDoubleEscapedLessThanSign => exact mu_scriptDataDoubleEscapedLessThanSign env
  | scriptDataDoubleEscapeEnd => exact mu_scriptDataDoubleEscapeEnd env
  | scriptDataDoubleEscapeStart => exact mu_scriptDataDoubleEscapeStart env
  | scriptDataEndTagName => exact mu_scriptDataEndTagName env
  | scriptDataEndTagOpen => exact mu_scriptDataEndTagOpen env
  | scriptDataEscaped => exact mu_scriptDataEscaped env
  | scriptDataEscapedDash => exact mu_scriptDataEscapedDash env
  | scriptDataEscapedDashDash => exact mu_scriptDataEscapedDashDash env
  | scriptDataEscapedEndTagName => exact mu_scriptDataEscapedEndTagName env
  | scriptDataEscapedEndTagOpen => exact mu_scriptDataEscapedEndTagOpen env
  | scriptDataEscapedLessThanSign => exact mu_scriptDataEscapedLessThanSign env
  | scriptDataEscapeStart => exact mu_scriptDataEscapeStart env
  | scriptDataEscapeStartDash => exact mu_scriptDataEscapeStartDash env
  | scriptDataLessThanSign => exact mu_scriptDataLessThanSign env
  | selfClosingStart => exact mu_selfClosingStart env
  | tagName => exact mu_tagName env
  | tagOpen => exact mu_tagOpen env

end Verif.HtmlTok
