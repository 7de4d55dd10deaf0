import Verif.HtmlTok.Lemmas
import Mathlib.Tactic.SplitIfs

/-!
# The engine's tokenizer follows the standard's: text
-/

namespace Verif.HtmlTok

open Standard (Machine Tag Doctype Step act)
open Relation (ReflTransGen)

/-- one step of the engine's tokenizer in state `s` is some steps of the standard's -/
def Sim (env : Env) (p : Parser) (s : State) : Prop :=
  ∀ (t : Tok) (m : Machine) (f : Bool), t.queue = [] → t.state = s → f = p.foreign m.out → Going env s t m →
    ∃ m', ReflTransGen (Step env.names p) m m' ∧ Rel env p m.out (step env f t) m'

set_option hygiene false in
macro "sim_start" : tactic => `(tactic| (
  rintro ⟨rest', s, consumed', an, av, as, cur, tmp, queue, ls⟩ ⟨ms, ret, rest, tag, com, doc, buf, mls, consumed, out, fl, stp⟩
    f hq hs hf ⟨hi, hc, hst, hg, hu, hp, hr⟩
  simp only at hq hs hf hi hc hst hg hu hp
  simp only [img] at hst
  subst hq hs hi hc hst hg hu
  simp only [kind, KindRel, Clean] at hr))

set_option hygiene false in
macro "sim_unfold" : tactic => `(tactic|
  simp only [step, act, ite_isWs, ite_isUpper, ite_isAlpha, ite_isEnd, ite_slashGt, toLower_eq, repl_eq, null_eq, Tok.adv,
    Tok.goto, Tok.consume, Machine.switch, Machine.emitChars])

set_option hygiene false in
macro "one_step" : tactic => `(tactic| (
  refine ⟨_, .single (.state rfl (by simp)), ?_⟩
  sim_unfold))

/-- both machines go on -/
macro "fin_going" h:term : tactic => `(tactic|
  exact .going rfl ⟨rfl, rfl, rfl, rfl, rfl, $h, by simp_all [kind, KindRel, Clean, settle]⟩)

/-- the end of the input: the engine goes to the data state first -/
macro "fin_ending" : tactic => `(tactic| exact .ending rfl rfl rfl (by simp [Machine.emitEof, Machine.emit, settle]))

/-- the end of the input -/
macro "fin_ended" : tactic => `(tactic|
  exact .ended rfl (by simp [Machine.emitEof, Machine.emit, Tok.emit, settle_emit]) (by simp [Machine.emitEof, Machine.emit]))

set_option hygiene false in
macro "fin" : tactic => `(tactic| first | fin_going hp.tail | fin_going hp | fin_ending | fin_ended)

set_option hygiene false in
macro "sim_cases" : tactic => `(tactic| (
  cases rest with
  | nil => one_step; fin
  | cons c r => one_step; split_ifs <;> fin))

set_option hygiene false in
macro "sim_plain" : tactic => `(tactic| (sim_start; obtain ⟨rfl, rfl, rfl⟩ := hr; sim_cases))
set_option hygiene false in
macro "sim_raw" : tactic => `(tactic| (sim_start; obtain ⟨⟨rfl, rfl, rfl⟩, rfl⟩ := hr; sim_cases))
set_option hygiene false in
macro "sim_rawBuf" : tactic => `(tactic| (sim_start; obtain ⟨⟨rfl, rfl, rfl⟩, rfl, rfl⟩ := hr; sim_cases))

variable (env : Env) (p : Parser)

theorem sim_data : Sim env p .data := by sim_plain
theorem sim_plaintext : Sim env p .plaintext := by sim_plain
theorem sim_cdataSection : Sim env p .cdataSection := by sim_plain
theorem sim_cdataSectionBracket : Sim env p .cdataSectionBracket := by sim_plain
theorem sim_rcdata : Sim env p .rcdata := by sim_raw
theorem sim_rawtext : Sim env p .rawtext := by sim_raw
theorem sim_scriptData : Sim env p .scriptData := by sim_raw
theorem sim_rcdataLessThanSign : Sim env p .rcdataLessThanSign := by sim_raw
theorem sim_rawtextLessThanSign : Sim env p .rawtextLessThanSign := by sim_raw
theorem sim_scriptDataLessThanSign : Sim env p .scriptDataLessThanSign := by sim_raw
theorem sim_scriptDataEscapeStart : Sim env p .scriptDataEscapeStart := by sim_raw
theorem sim_scriptDataEscapeStartDash : Sim env p .scriptDataEscapeStartDash := by sim_raw
theorem sim_scriptDataEscaped : Sim env p .scriptDataEscaped := by sim_raw
theorem sim_scriptDataEscapedDash : Sim env p .scriptDataEscapedDash := by sim_raw
theorem sim_scriptDataEscapedDashDash : Sim env p .scriptDataEscapedDashDash := by sim_raw
theorem sim_scriptDataEscapedLessThanSign : Sim env p .scriptDataEscapedLessThanSign := by sim_raw
theorem sim_scriptDataDoubleEscaped : Sim env p .scriptDataDoubleEscaped := by sim_raw
theorem sim_scriptDataDoubleEscapedDash : Sim env p .scriptDataDoubleEscapedDash := by sim_raw
theorem sim_scriptDataDoubleEscapedDashDash : Sim env p .scriptDataDoubleEscapedDashDash := by sim_raw
theorem sim_scriptDataDoubleEscapedLessThanSign : Sim env p .scriptDataDoubleEscapedLessThanSign := by sim_raw
theorem sim_scriptDataDoubleEscapeStart : Sim env p .scriptDataDoubleEscapeStart := by sim_rawBuf
theorem sim_scriptDataDoubleEscapeEnd : Sim env p .scriptDataDoubleEscapeEnd := by sim_rawBuf

end Verif.HtmlTok
