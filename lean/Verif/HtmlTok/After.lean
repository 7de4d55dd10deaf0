import Verif.HtmlTok.Term

/-!
# What a step leaves in the queue
-/

namespace Verif.HtmlTok

/-- after a step: the queue holds at most a text and one more token, and unless that ends the run the tokenizer is back in a
content state -/
def After (t : Tok) : Prop := Emitted t ∧ (t.queue = [] ∨ .eof ∈ t.queue ∨ rank t.state t.rest = 4)

theorem after_none {t : Tok} (h : t.queue = []) : After t := ⟨.inl h, .inl h⟩

theorem after_rank {t : Tok} (h : Emitted t) (hr : rank t.state t.rest = 4) : After t := ⟨h, .inr (.inr hr)⟩

theorem after_eof {t : Tok} (h : t.queue = []) : After (t.emit .eof) :=
  ⟨emit_emitted h _, .inr (.inl (by simp [Tok.emit]))⟩

def Leaves (env : Env) (s : State) : Prop := ∀ (f : Bool) (t : Tok), t.queue = [] → t.state = s → After (step env f t)

set_option hygiene false in
macro "af_fin" : tactic => `(tactic| first
  | exact after_eof rfl
  | exact after_none rfl
  | (refine after_none ?_; simp [Tok.adv, Tok.goto, Tok.consume]; done)
  | exact after_rank (emitCur_emitted rfl) (by simp [Tok.adv, rank]; done)
  | exact after_rank (finishTag_emitted rfl) (by simp [Tok.adv, rank]; done)
  | (refine after_rank (finishTag_emitted ?_) ?_ <;> (simp [Tok.adv, rank]; done))
  | exact after_rank (brokenDoctype_emitted rfl) rfl
  | exact after_rank (namelessDoctype_emitted rfl) rfl
  | exact after_rank ((emitCur_emitted rfl).of_queue rfl) (by simp [Tok.adv, rank]; done)
  )

set_option hygiene false in
macro "af_simple" : tactic => `(tactic| (
  mu_start
  simp only [step]
  try simp only [Tok.endTagOpenIn, Tok.endTagNameIn, Tok.doctypeId, Tok.startDoctype, Tok.transitionTo]
  cases rest with
  | nil => dsimp only; af_fin
  | cons c r => dsimp only; split_ifs <;> af_fin))

variable (env : Env)

theorem leaves_afterAttributeName : Leaves env .afterAttributeName := by af_simple
theorem leaves_afterAttributeValueQuoted : Leaves env .afterAttributeValueQuoted := by af_simple
theorem leaves_afterDoctypePublicIdentifier : Leaves env .afterDoctypePublicIdentifier := by af_simple
theorem leaves_afterDoctypePublicKeyword : Leaves env .afterDoctypePublicKeyword := by af_simple
theorem leaves_afterDoctypeSystemIdentifier : Leaves env .afterDoctypeSystemIdentifier := by af_simple
theorem leaves_afterDoctypeSystemKeyword : Leaves env .afterDoctypeSystemKeyword := by af_simple
theorem leaves_attributeName : Leaves env .attributeName := by af_simple
theorem leaves_attributeValueDoubleQuoted : Leaves env .attributeValueDoubleQuoted := by af_simple
theorem leaves_attributeValueSingleQuoted : Leaves env .attributeValueSingleQuoted := by af_simple
theorem leaves_attributeValueUnquoted : Leaves env .attributeValueUnquoted := by af_simple
theorem leaves_beforeAttributeName : Leaves env .beforeAttributeName := by af_simple
theorem leaves_beforeAttributeValue : Leaves env .beforeAttributeValue := by af_simple
theorem leaves_beforeDoctypeName : Leaves env .beforeDoctypeName := by af_simple
theorem leaves_beforeDoctypePublicIdentifier : Leaves env .beforeDoctypePublicIdentifier := by af_simple
theorem leaves_beforeDoctypeSystemIdentifier : Leaves env .beforeDoctypeSystemIdentifier := by af_simple
theorem leaves_betweenDoctypePublicAndSystemIdentifiers : Leaves env .betweenDoctypePublicAndSystemIdentifiers := by af_simple
theorem leaves_bogusComment : Leaves env .bogusComment := by af_simple
theorem leaves_bogusDoctype : Leaves env .bogusDoctype := by af_simple
theorem leaves_cdataSection : Leaves env .cdataSection := by af_simple
theorem leaves_cdataSectionBracket : Leaves env .cdataSectionBracket := by af_simple
theorem leaves_cdataSectionEnd : Leaves env .cdataSectionEnd := by af_simple
theorem leaves_comment : Leaves env .comment := by af_simple
theorem leaves_commentEnd : Leaves env .commentEnd := by af_simple
theorem leaves_commentEndBang : Leaves env .commentEndBang := by af_simple
theorem leaves_commentEndDash : Leaves env .commentEndDash := by af_simple
theorem leaves_commentLessThanSign : Leaves env .commentLessThanSign := by af_simple
theorem leaves_commentLessThanSignBang : Leaves env .commentLessThanSignBang := by af_simple
theorem leaves_commentLessThanSignBangDash : Leaves env .commentLessThanSignBangDash := by af_simple
theorem leaves_commentStart : Leaves env .commentStart := by af_simple
theorem leaves_commentStartDash : Leaves env .commentStartDash := by af_simple
theorem leaves_data : Leaves env .data := by af_simple
theorem leaves_doctype : Leaves env .doctype := by af_simple
theorem leaves_doctypeName : Leaves env .doctypeName := by af_simple
theorem leaves_doctypePublicIdentifierDoubleQuoted : Leaves env .doctypePublicIdentifierDoubleQuoted := by af_simple
theorem leaves_doctypePublicIdentifierSingleQuoted : Leaves env .doctypePublicIdentifierSingleQuoted := by af_simple
theorem leaves_doctypeSystemIdentifierDoubleQuoted : Leaves env .doctypeSystemIdentifierDoubleQuoted := by af_simple
theorem leaves_doctypeSystemIdentifierSingleQuoted : Leaves env .doctypeSystemIdentifierSingleQuoted := by af_simple
theorem leaves_endTagOpen : Leaves env .endTagOpen := by af_simple
theorem leaves_plaintext : Leaves env .plaintext := by af_simple
theorem leaves_rawtext : Leaves env .rawtext := by af_simple
theorem leaves_rawtextEndTagName : Leaves env .rawtextEndTagName := by af_simple
theorem leaves_rawtextEndTagOpen : Leaves env .rawtextEndTagOpen := by af_simple
theorem leaves_rawtextLessThanSign : Leaves env .rawtextLessThanSign := by af_simple
theorem leaves_rcdata : Leaves env .rcdata := by af_simple
theorem leaves_rcdataEndTagName : Leaves env .rcdataEndTagName := by af_simple
theorem leaves_rcdataEndTagOpen : Leaves env .rcdataEndTagOpen := by af_simple
theorem leaves_rcdataLessThanSign : Leaves env .rcdataLessThanSign := by af_simple
theorem leaves_scriptData : Leaves env .scriptData := by af_simple
theorem leaves_scriptDataDoubleEscaped : Leaves env .scriptDataDoubleEscaped := by af_simple
theorem leaves_scriptDataDoubleEscapedDash : Leaves env .scriptDataDoubleEscapedDash := by af_simple
theorem leaves_scriptDataDoubleEscapedDashDash : Leaves env .scriptDataDoubleEscapedDashDash := by af_simple
theorem leaves_scriptDataDoubleEscapedLessThanSign : Leaves env .scriptDataDoubleEscapedLessThanSign := by af_simple
theorem leaves_scriptDataDoubleEscapeEnd : Leaves env .scriptDataDoubleEscapeEnd := by af_simple
theorem leaves_scriptDataDoubleEscapeStart : Leaves env .scriptDataDoubleEscapeStart := by af_simple
theorem leaves_scriptDataEndTagName : Leaves env .scriptDataEndTagName := by af_simple
theorem leaves_scriptDataEndTagOpen : Leaves env .scriptDataEndTagOpen := by af_simple
theorem leaves_scriptDataEscaped : Leaves env .scriptDataEscaped := by af_simple
theorem leaves_scriptDataEscapedDash : Leaves env .scriptDataEscapedDash := by af_simple
theorem leaves_scriptDataEscapedDashDash : Leaves env .scriptDataEscapedDashDash := by af_simple
theorem leaves_scriptDataEscapedEndTagName : Leaves env .scriptDataEscapedEndTagName := by af_simple
theorem leaves_scriptDataEscapedEndTagOpen : Leaves env .scriptDataEscapedEndTagOpen := by af_simple
theorem leaves_scriptDataEscapedLessThanSign : Leaves env .scriptDataEscapedLessThanSign := by af_simple
theorem leaves_scriptDataEscapeStart : Leaves env .scriptDataEscapeStart := by af_simple
theorem leaves_scriptDataEscapeStartDash : Leaves env .scriptDataEscapeStartDash := by af_simple
theorem leaves_scriptDataLessThanSign : Leaves env .scriptDataLessThanSign := by af_simple
theorem leaves_selfClosingStart : Leaves env .selfClosingStart := by af_simple
theorem leaves_tagName : Leaves env .tagName := by af_simple
theorem leaves_tagOpen : Leaves env .tagOpen := by af_simple

theorem leaves_commentLessThanSignBangDashDash : Leaves env .commentLessThanSignBangDashDash := by
  mu_start
  simp only [step]
  af_fin

theorem leaves_characterReferenceInAttributeValue : Leaves env .characterReferenceInAttributeValue := by
  mu_start
  exact after_eof rfl

theorem leaves_afterDoctypeName : Leaves env .afterDoctypeName := by
  mu_start
  simp only [step, Tok.afterDoctypeNameKeyword]
  cases rest with
  | nil => dsimp only; af_fin
  | cons c r =>
    dsimp only
    split_ifs <;> af_fin

theorem leaves_markupDeclarationOpen : Leaves env .markupDeclarationOpen := by
  mu_start
  simp only [step, Tok.markupDeclaration]
  split_ifs <;> af_fin

theorem leaves_characterReferenceInData : Leaves env .characterReferenceInData := by
  mu_start
  exact after_none rfl

theorem leaves_characterReferenceInRcData : Leaves env .characterReferenceInRcData := by
  mu_start
  exact after_none rfl

theorem step_after (s : State) : Leaves env s := by
  cases s with
  | afterAttributeName => exact leaves_afterAttributeName env
  | afterAttributeValueQuoted => exact leaves_afterAttributeValueQuoted env
  | afterDoctypeName => exact leaves_afterDoctypeName env
  | afterDoctypePublicIdentifier => exact leaves_afterDoctypePublicIdentifier env
  | afterDoctypePublicKeyword => exact leaves_afterDoctypePublicKeyword env
  | afterDoctypeSystemIdentifier => exact leaves_afterDoctypeSystemIdentifier env
  | afterDoctypeSystemKeyword => exact leaves_afterDoctypeSystemKeyword env
  | attributeName => exact leaves_attributeName env
  | attributeValueDoubleQuoted => exact leaves_attributeValueDoubleQuoted env
  | attributeValueSingleQuoted => exact leaves_attributeValueSingleQuoted env
  | attributeValueUnquoted => exact leaves_attributeValueUnquoted env
  | beforeAttributeName => exact leaves_beforeAttributeName env
  | beforeAttributeValue => exact leaves_beforeAttributeValue env
  | beforeDoctypeName => exact leaves_beforeDoctypeName env
  | beforeDoctypePublicIdentifier => exact leaves_beforeDoctypePublicIdentifier env
  | beforeDoctypeSystemIdentifier => exact leaves_beforeDoctypeSystemIdentifier env
  | betweenDoctypePublicAndSystemIdentifiers => exact leaves_betweenDoctypePublicAndSystemIdentifiers env
  | bogusComment => exact leaves_bogusComment env
  | bogusDoctype => exact leaves_bogusDoctype env
  | cdataSection => exact leaves_cdataSection env
  | cdataSectionBracket => exact leaves_cdataSectionBracket env
  | cdataSectionEnd => exact leaves_cdataSectionEnd env
  | characterReferenceInAttributeValue => exact leaves_characterReferenceInAttributeValue env
  | characterReferenceInData => exact leaves_characterReferenceInData env
  | characterReferenceInRcData => exact leaves_characterReferenceInRcData env
  | comment => exact leaves_comment env
  | commentEnd => exact leaves_commentEnd env
  | commentEndBang => exact leaves_commentEndBang env
  | commentEndDash => exact leaves_commentEndDash env
  | commentLessThanSign => exact leaves_commentLessThanSign env
  | commentLessThanSignBang => exact leaves_commentLessThanSignBang env
  | commentLessThanSignBangDash => exact leaves_commentLessThanSignBangDash env
  | commentLessThanSignBangDashDash => exact leaves_commentLessThanSignBangDashDash env
  | commentStart => exact leaves_commentStart env
  | commentStartDash => exact leaves_commentStartDash env
  | data => exact leaves_data env
  | doctype => exact leaves_doctype env
  | doctypeName => exact leaves_doctypeName env
  | doctypePublicIdentifierDoubleQuoted => exact leaves_doctypePublicIdentifierDoubleQuoted env
  | doctypePublicIdentifierSingleQuoted => exact leaves_doctypePublicIdentifierSingleQuoted env
  | doctypeSystemIdentifierDoubleQuoted => exact leaves_doctypeSystemIdentifierDoubleQuoted env
  | doctypeSystemIdentifierSingleQuoted => exact leaves_doctypeSystemIdentifierSingleQuoted env
  | endTagOpen => exact leaves_endTagOpen env
  | markupDeclarationOpen => exact leaves_markupDeclarationOpen env
  | plaintext => exact leaves_plaintext env
  | rawtext => exact leaves_rawtext env
  | rawtextEndTagName => exact leaves_rawtextEndTagName env
  | rawtextEndTagOpen => exact leaves_rawtextEndTagOpen env
  | rawtextLessThanSign => exact leaves_rawtextLessThanSign env
  | rcdata => exact leaves_rcdata env
  | rcdataEndTagName => exact leaves_rcdataEndTagName env
  | rcdataEndTagOpen => exact leaves_rcdataEndTagOpen env
  | rcdataLessThanSign => exact leaves_rcdataLessThanSign env
  | scriptData => exact leaves_scriptData env
  | scriptDataDoubleEscaped => exact leaves_scriptDataDoubleEscaped env
  | scriptDataDoubleEscapedDash => exact leaves_scriptDataDoubleEscapedDash env
  | scriptDataDoubleEscapedDashDash => exact leaves_scriptDataDoubleEscapedDashDash env
  | scriptDataDoubleEscapedLessThanSign => exact leaves_scriptDataDoubleEscapedLessThanSign env
  | scriptDataDoubleEscapeEnd => exact leaves_scriptDataDoubleEscapeEnd env
  | scriptDataDoubleEscapeStart => exact leaves_scriptDataDoubleEscapeStart env
  | scriptDataEndTagName => exact leaves_scriptDataEndTagName env
  | scriptDataEndTagOpen => exact leaves_scriptDataEndTagOpen env
  | scriptDataEscaped => exact leaves_scriptDataEscaped env
  | scriptDataEscapedDash => exact leaves_scriptDataEscapedDash env
  | scriptDataEscapedDashDash => exact leaves_scriptDataEscapedDashDash env
  | scriptDataEscapedEndTagName => exact leaves_scriptDataEscapedEndTagName env
  | scriptDataEscapedEndTagOpen => exact leaves_scriptDataEscapedEndTagOpen env
  | scriptDataEscapedLessThanSign => exact leaves_scriptDataEscapedLessThanSign env
  | scriptDataEscapeStart => exact leaves_scriptDataEscapeStart env
  | scriptDataEscapeStartDash => exact leaves_scriptDataEscapeStartDash env
  | scriptDataLessThanSign => exact leaves_scriptDataLessThanSign env
  | selfClosingStart => exact leaves_selfClosingStart env
  | tagName => exact leaves_tagName env
  | tagOpen => exact leaves_tagOpen env

end Verif.HtmlTok
