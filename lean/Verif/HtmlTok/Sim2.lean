import Verif.HtmlTok.Sim

/-!
# The engine's tokenizer follows the standard's: the start of tags, and comments and doctypes
-/

namespace Verif.HtmlTok

open Standard (Machine Tag Doctype Step act)
open Relation (ReflTransGen)
open CharRef (TableOk)

variable (env : Env) (p : Parser)

/-! ## references in text -/

theorem sim_characterReferenceInData (hT : TableOk env.names) : Sim env p .characterReferenceInData := by
  sim_start
  obtain ⟨⟨rfl, rfl, rfl⟩, rfl⟩ := hr
  obtain ⟨o, r, hR, h1, h2, h3⟩ := CharRef.C51_reference env.names hT false ⟨rest, consumed, []⟩
  simp only [Bool.false_eq_true, if_false] at h1 h2 h3
  refine ⟨_, .single (.reference rfl rfl hR), ?_⟩
  simp only [step, Tok.charRef, h1, h2, h3, Tok.goto, Standard.afterReference, Standard.inAttribute, Machine.switch,
    Machine.emitChars]
  fin_going (hp.ref hR)

theorem sim_characterReferenceInRcData (hT : TableOk env.names) : Sim env p .characterReferenceInRcData := by
  sim_start
  obtain ⟨⟨rfl, rfl, rfl⟩, rfl, rfl⟩ := hr
  obtain ⟨o, r, hR, h1, h2, h3⟩ := CharRef.C51_reference env.names hT false ⟨rest, consumed, []⟩
  simp only [Bool.false_eq_true, if_false] at h1 h2 h3
  refine ⟨_, .single (.reference rfl rfl hR), ?_⟩
  simp only [step, Tok.charRef, h1, h2, h3, Tok.goto, Standard.afterReference, Standard.inAttribute, Machine.switch,
    Machine.emitChars]
  fin_going (hp.ref hR)

/-! ## the start of a tag -/

theorem sim_tagOpen : Sim env p .tagOpen := by
  sim_start; obtain ⟨rfl, rfl, rfl⟩ := hr
  cases rest with
  | nil => one_step; exact .ending rfl rfl rfl (by simp [Machine.emitEof, Machine.emit, settle])
  | cons c r =>
    one_step
    simp only [Machine.newTag]
    split_ifs <;> first
      | exact .going rfl ⟨rfl, rfl, rfl, rfl, rfl, hp, ⟨rfl, rfl, rfl⟩, ⟨rfl, rfl⟩, rfl⟩
      | fin

theorem sim_endTagOpen : Sim env p .endTagOpen := by
  sim_start; obtain ⟨rfl, rfl, rfl⟩ := hr
  cases rest with
  | nil => one_step; exact .ending rfl rfl rfl (by simp [Machine.emitEof, Machine.emit, settle])
  | cons c r =>
    one_step
    simp only [Machine.newTag]
    split_ifs <;> first
      | exact .going rfl ⟨rfl, rfl, rfl, rfl, rfl, hp, ⟨rfl, rfl, rfl⟩, ⟨rfl, rfl⟩, rfl⟩
      | fin

set_option hygiene false in
macro "sim_endTagOpenIn" : tactic => `(tactic| (
  sim_start; obtain ⟨⟨rfl, rfl, rfl⟩, rfl, rfl⟩ := hr
  cases rest with
  | nil => one_step; simp only [Tok.endTagOpenIn, Tok.consume, Tok.goto]; fin
  | cons c r =>
    one_step
    simp only [Tok.endTagOpenIn, Machine.newTag, ite_isAlpha, Tok.consume, Tok.goto]
    split_ifs <;> fin))

theorem sim_rcdataEndTagOpen : Sim env p .rcdataEndTagOpen := by sim_endTagOpenIn
theorem sim_rawtextEndTagOpen : Sim env p .rawtextEndTagOpen := by sim_endTagOpenIn
theorem sim_scriptDataEscapedEndTagOpen : Sim env p .scriptDataEscapedEndTagOpen := by sim_endTagOpenIn

theorem alpha_not : ∀ c ∈ Standard.asciiAlpha, c ∉ Standard.whitespace ∧ c ≠ '/' ∧ c ≠ '>' := by decide +kernel

theorem sim_scriptDataEndTagOpen : Sim env p .scriptDataEndTagOpen := by
  sim_start; obtain ⟨⟨rfl, rfl, rfl⟩, rfl, rfl⟩ := hr
  cases rest with
  | nil => one_step; fin
  | cons c r =>
    by_cases ha : c ∈ Standard.asciiAlpha
    · obtain ⟨h1, h2, h3⟩ := alpha_not c ha
      refine ⟨_, .tail (.single (.state rfl (by simp))) (.state ?_ ?_), ?_⟩
      · simp [act, ha, Machine.newTag, Machine.switch]
      · simp [act, ha, Machine.newTag, Machine.switch]
      · sim_unfold
        simp only [if_pos ha, Machine.newTag]
        simp only [Machine.endTagName, h1, h2, h3, false_and, if_false, if_pos ha, Machine.appendName]
        exact .going rfl ⟨rfl, rfl, rfl, rfl, rfl, hp.tail, ⟨rfl, rfl, rfl⟩, rfl, rfl, _, rfl, rfl⟩
    · one_step
      simp only [if_neg ha]
      fin

set_option hygiene false in
macro "sim_endTagNameIn" : tactic => `(tactic| (
  sim_start; obtain ⟨⟨rfl, rfl, rfl⟩, rfl, rfl, n, rfl, rfl⟩ := hr
  cases rest with
  | nil =>
    one_step
    simp only [Tok.endTagNameIn, Machine.endTagName, Tok.transitionTo, Machine.emitChars, Machine.switch]
    exact .going rfl ⟨rfl, by simp, rfl, rfl, rfl, hp, by simp [kind, KindRel, Clean, settle]⟩
  | cons c r =>
    one_step
    simp only [Tok.endTagNameIn, Machine.endTagName, Tok.transitionTo, Machine.emitChars, Machine.switch, ite_isWs,
      ite_isAlpha, toLower_eq, Tok.appropriate, Tok.endName, Machine.appropriate, decide_eq_true_eq, eq_comm (a := n)]
    by_cases ha : mls = n
    · subst ha
      simp only [and_true, if_true, decide_true, Tok.adv, Tok.addName, Machine.appendName, Machine.emitTag, Tok.emitCur,
        Machine.switch]
      by_cases h1 : c ∈ Standard.whitespace
      · simp only [if_pos h1]
        exact .going rfl ⟨rfl, rfl, rfl, rfl, rfl, hp.tail, ⟨rfl, rfl⟩, [], rfl, .inl ⟨rfl, rfl, rfl⟩⟩
      by_cases h2 : c = '/'
      · simp only [if_neg h1, if_pos h2]
        exact .going rfl ⟨rfl, rfl, rfl, rfl, rfl, hp.tail, ⟨rfl, rfl⟩, [], rfl, .inl ⟨rfl, rfl, rfl⟩⟩
      by_cases h3 : c = '>'
      · simp only [if_neg h1, if_neg h2, if_pos h3]
        exact rel_emit (s := consumed) (k := .endTag mls) rfl rfl rfl rfl rfl rfl rfl rfl rfl hp.tail rfl rfl rfl
      simp only [if_neg h1, if_neg h2, if_neg h3]
      split_ifs
      · exact .going rfl ⟨rfl, rfl, rfl, rfl, rfl, hp.tail, ⟨rfl, rfl, rfl⟩, rfl, rfl, _, rfl, rfl⟩
      · exact .going rfl ⟨rfl, by simp, rfl, rfl, rfl, hp, ⟨rfl, rfl, rfl⟩, rfl⟩
    · simp only [ha, and_false, if_false, decide_false, Bool.false_eq_true, Tok.addName, Machine.appendName]
      by_cases h0 : c ∈ Standard.asciiAlpha
      · obtain ⟨h1, h2, h3⟩ := alpha_not c h0
        simp only [if_neg h1, if_neg h2, if_neg h3, if_pos h0]
        exact .going rfl ⟨rfl, rfl, rfl, rfl, rfl, hp.tail, ⟨rfl, rfl, rfl⟩, rfl, rfl, _, rfl, rfl⟩
      · simp only [if_neg h0, ite_self]
        exact .going rfl ⟨rfl, by simp, rfl, rfl, rfl, hp, ⟨rfl, rfl, rfl⟩, rfl⟩))

theorem sim_rcdataEndTagName : Sim env p .rcdataEndTagName := by sim_endTagNameIn
theorem sim_rawtextEndTagName : Sim env p .rawtextEndTagName := by sim_endTagNameIn
theorem sim_scriptDataEndTagName : Sim env p .scriptDataEndTagName := by sim_endTagNameIn
theorem sim_scriptDataEscapedEndTagName : Sim env p .scriptDataEscapedEndTagName := by sim_endTagNameIn

theorem sim_cdataSectionEnd : Sim env p .cdataSectionEnd := by
  sim_start; obtain ⟨rfl, rfl, rfl⟩ := hr
  cases rest with
  | nil => one_step; fin
  | cons c r =>
    by_cases h1 : c = '>'
    · subst h1; one_step; simp; fin
    by_cases h2 : c = ']'
    · subst h2; one_step; simp; fin
    · refine ⟨_, .tail (.single (.state rfl (by simp))) (.state ?_ ?_), ?_⟩
      · simp [act, h1, h2, Machine.emitChars, Machine.switch]
      · simp [act, h1, h2, Machine.emitChars, Machine.switch]
      · sim_unfold
        simp only [if_neg h1, if_neg h2]
        exact .going rfl ⟨rfl, by simp, rfl, rfl, rfl, hp.tail, rfl, rfl, rfl⟩

theorem sim_markupDeclarationOpen : Sim env p .markupDeclarationOpen := by
  sim_start; obtain ⟨rfl, rfl, rfl⟩ := hr
  one_step
  have e1 : slice 2 rest = ['-', '-'] ↔ rest.take 2 = ['-', '-'] :=
    slice_eq_take (kw := ['-', '-']) (by decide)
  have e2 : slice 7 rest = "[CDATA[".toList ↔ rest.take 7 = "[CDATA[".toList :=
    slice_eq_take (kw := "[CDATA[".toList) (by decide)
  have e3 := ahead_eq hp "DOCTYPE".toList (by decide)
  simp only [Tok.markupDeclaration, Tok.adv, e1, e2, e3, decide_eq_true_eq, hf]
  by_cases h1 : rest.take 2 = ['-', '-']
  · simp only [if_pos h1]; fin_going (hp.drop 2)
  simp only [if_neg h1]
  by_cases h2 : Standard.startsWith "DOCTYPE".toList rest
  · simp only [if_pos h2]; fin_going (hp.drop 7)
  simp only [if_neg h2]
  by_cases h3 : rest.take 7 = "[CDATA[".toList
  · simp only [if_pos h3]
    by_cases h4 : p.foreign out = true
    · simp only [if_pos h4]; fin_going (hp.drop 7)
    · simp only [if_neg h4]; fin_going (hp.drop 7)
  · simp only [if_neg h3]; fin_going hp

/-! ## comments -/

set_option hygiene false in
macro "fin_emit" : tactic => `(tactic| first
  | exact rel_emit (s := consumed) rfl rfl rfl rfl rfl rfl rfl rfl rfl hp.tail rfl rfl rfl
  | exact .ending rfl (by simp [Tok.emit, settle_emit, afterToken]) rfl (by
      simp [Machine.emitEof, Machine.emit, Tok.emit, settle_emit, afterToken]))

set_option hygiene false in
macro "sim_comment" : tactic => `(tactic| (
  sim_start; obtain ⟨⟨rfl, rfl, rfl⟩, rfl⟩ := hr
  cases rest with
  | nil =>
    one_step
    try simp only [Tok.emitCur, Machine.emitComment]
    first | fin_going hp | fin_emit
  | cons c r =>
    one_step
    try simp only [Tok.emitCur, Tok.addValue, Machine.appendComment, Machine.emitComment]
    split_ifs <;> first
      | exact .going rfl ⟨rfl, rfl, rfl, rfl, rfl, hp.tail, ⟨rfl, rfl, rfl⟩, rfl⟩
      | exact .going rfl ⟨rfl, rfl, rfl, rfl, rfl, hp, ⟨rfl, rfl, rfl⟩, rfl⟩
      | fin_emit))

theorem sim_bogusComment : Sim env p .bogusComment := by sim_comment
theorem sim_commentStart : Sim env p .commentStart := by sim_comment
theorem sim_commentStartDash : Sim env p .commentStartDash := by sim_comment
theorem sim_comment' : Sim env p .comment := by sim_comment
theorem sim_commentLessThanSign : Sim env p .commentLessThanSign := by sim_comment
theorem sim_commentLessThanSignBang : Sim env p .commentLessThanSignBang := by sim_comment
theorem sim_commentLessThanSignBangDash : Sim env p .commentLessThanSignBangDash := by sim_comment
theorem sim_commentLessThanSignBangDashDash : Sim env p .commentLessThanSignBangDashDash := by
  sim_start; obtain ⟨⟨rfl, rfl, rfl⟩, rfl⟩ := hr
  one_step
  exact .going rfl ⟨rfl, rfl, rfl, rfl, rfl, hp, ⟨rfl, rfl, rfl⟩, rfl⟩
theorem sim_commentEndDash : Sim env p .commentEndDash := by sim_comment
theorem sim_commentEnd : Sim env p .commentEnd := by sim_comment
theorem sim_commentEndBang : Sim env p .commentEndBang := by sim_comment

end Verif.HtmlTok
