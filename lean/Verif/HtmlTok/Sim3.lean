import Verif.HtmlTok.Sim2

/-!
# The engine's tokenizer follows the standard's: doctypes and attributes
-/

namespace Verif.HtmlTok

open Standard (Machine Tag Doctype Step act)
open Relation (ReflTransGen)
open CharRef (TableOk)

variable (env : Env) (p : Parser)

/-! ## doctypes -/

theorem sim_doctype : Sim env p .doctype := by
  sim_start; obtain ⟨rfl, rfl, rfl⟩ := hr
  cases rest with
  | nil =>
    one_step
    simp only [Tok.namelessDoctype, Machine.newDoctype, Machine.eofInDoctype, Machine.forceQuirks, Machine.emitDoctype]
    fin_emit
  | cons c r => one_step; split_ifs <;> fin

theorem sim_beforeDoctypeName : Sim env p .beforeDoctypeName := by
  sim_start; obtain ⟨rfl, rfl, rfl⟩ := hr
  cases rest with
  | nil =>
    one_step
    simp only [Tok.namelessDoctype, Machine.newDoctype, Machine.eofInDoctype, Machine.forceQuirks, Machine.emitDoctype]
    fin_emit
  | cons c r =>
    one_step
    simp only [Tok.startDoctype, Tok.addName, Tok.adv, Machine.newDoctype]
    split_ifs <;> first
      | exact .going rfl ⟨rfl, rfl, rfl, rfl, rfl, hp.tail, ⟨rfl, rfl, rfl⟩, Option.some_ne_none _, rfl⟩
      | exact .going rfl ⟨rfl, rfl, rfl, rfl, rfl, hp.tail, rfl, rfl, rfl⟩
      | fin_emit

set_option hygiene false in
macro "doctype_start" : tactic => `(tactic| (
  sim_start; obtain ⟨⟨rfl, rfl, rfl⟩, hn, rfl⟩ := hr
  obtain ⟨dn, dq, dp, ds⟩ := doc
  simp only at hn
  cases dn with
  | none => exact absurd rfl hn
  | some dn => ?_))

macro "doctype_unfold" : tactic => `(tactic|
  try simp only [Tok.emitCur, Tok.addName, Tok.setQuirks, Tok.brokenDoctype, Tok.setPub, Tok.addPub, Tok.setSys, Tok.addSys,
    Tok.doctypeId, repl_eq, null_eq, Tok.adv, Machine.emitDoctype, Machine.eofInDoctype, Machine.forceQuirks,
    Machine.appendDoctypeName, Machine.emptyPublic, Machine.emptySystem, Machine.appendPublic, Machine.appendSystem,
    Option.map_some, Option.map_none])

set_option hygiene false in
macro "doctype_fin" : tactic => `(tactic| first
  | exact .going rfl ⟨rfl, rfl, rfl, rfl, rfl, hp.tail, ⟨rfl, rfl, rfl⟩, Option.some_ne_none _, rfl⟩
  | exact .going rfl ⟨rfl, rfl, rfl, rfl, rfl, hp, ⟨rfl, rfl, rfl⟩, Option.some_ne_none _, rfl⟩
  | fin_emit)

set_option hygiene false in
macro "sim_doctype" : tactic => `(tactic| (
  doctype_start
  cases rest with
  | nil => one_step; doctype_unfold; fin_emit
  | cons c r =>
    one_step; doctype_unfold
    split_ifs <;> doctype_fin))

theorem sim_doctypeName : Sim env p .doctypeName := by sim_doctype
theorem sim_afterDoctypePublicKeyword : Sim env p .afterDoctypePublicKeyword := by sim_doctype
theorem sim_beforeDoctypePublicIdentifier : Sim env p .beforeDoctypePublicIdentifier := by sim_doctype
theorem sim_afterDoctypePublicIdentifier : Sim env p .afterDoctypePublicIdentifier := by sim_doctype
theorem sim_betweenDoctypePublicAndSystemIdentifiers : Sim env p .betweenDoctypePublicAndSystemIdentifiers := by sim_doctype
theorem sim_afterDoctypeSystemKeyword : Sim env p .afterDoctypeSystemKeyword := by sim_doctype
theorem sim_beforeDoctypeSystemIdentifier : Sim env p .beforeDoctypeSystemIdentifier := by sim_doctype
theorem sim_afterDoctypeSystemIdentifier : Sim env p .afterDoctypeSystemIdentifier := by sim_doctype
theorem sim_bogusDoctype : Sim env p .bogusDoctype := by sim_doctype

set_option hygiene false in
macro "sim_doctypeId" part:ident : tactic => `(tactic| (
  doctype_start
  cases rest with
  | nil => one_step; doctype_unfold; fin_emit
  | cons c r =>
    cases $part:ident <;> one_step <;> doctype_unfold <;> split_ifs <;> doctype_fin))

theorem sim_doctypePublicIdentifierDoubleQuoted : Sim env p .doctypePublicIdentifierDoubleQuoted := by sim_doctypeId dp
theorem sim_doctypePublicIdentifierSingleQuoted : Sim env p .doctypePublicIdentifierSingleQuoted := by sim_doctypeId dp
theorem sim_doctypeSystemIdentifierDoubleQuoted : Sim env p .doctypeSystemIdentifierDoubleQuoted := by sim_doctypeId ds
theorem sim_doctypeSystemIdentifierSingleQuoted : Sim env p .doctypeSystemIdentifierSingleQuoted := by sim_doctypeId ds

theorem sim_afterDoctypeName : Sim env p .afterDoctypeName := by
  doctype_start
  cases rest with
  | nil => one_step; doctype_unfold; fin_emit
  | cons c r =>
    one_step
    have e1 := ahead_eq hp "PUBLIC".toList (by decide)
    have e2 := ahead_eq hp "SYSTEM".toList (by decide)
    simp only [Tok.afterDoctypeNameKeyword, e1, e2, decide_eq_true_eq, Tok.goto]
    doctype_unfold
    by_cases h1 : c ∈ Standard.whitespace
    · simp only [if_pos h1]; doctype_fin
    by_cases h2 : c = '>'
    · simp only [if_neg h1, if_pos h2]; doctype_fin
    simp only [if_neg h1, if_neg h2]
    by_cases h3 : Standard.startsWith "PUBLIC".toList (c :: r)
    · simp only [if_pos h3]
      exact .going rfl ⟨rfl, rfl, rfl, rfl, rfl, hp.drop 6, ⟨rfl, rfl, rfl⟩, Option.some_ne_none _, rfl⟩
    by_cases h4 : Standard.startsWith "SYSTEM".toList (c :: r)
    · simp only [if_neg h3, if_pos h4]
      exact .going rfl ⟨rfl, rfl, rfl, rfl, rfl, hp.drop 6, ⟨rfl, rfl, rfl⟩, Option.some_ne_none _, rfl⟩
    · simp only [if_neg h3, if_neg h4]
      exact .going rfl ⟨rfl, rfl, rfl, rfl, rfl, hp, ⟨rfl, rfl, rfl⟩, Option.some_ne_none _, rfl⟩

end Verif.HtmlTok
