import Verif.CssParse.Props
import Verif.CssTok.Trip3

/-!
# C115: from the text of a stylesheet to its rules

The tokenizer and the parser together. `text ts` spells tokens one after the other, with nothing in between; `WritableAll ts` tells
that they can be told apart when they are written like that.
-/

namespace Verif.CssParse

open Verif.CssTok (Token Yields WritableAll Writable Word Numeral UnitName Follows NumberLike text spell text_back yields_unique)

/-- Tokens that can be told apart are read back from their text, one by one, and nothing else is read. -/
theorem C115_tokens_read (tok : Verif.CssTok.Env) (ts : List Token) (h : WritableAll ts) (us : List Token) :
    Yields tok true (text ts) us ↔ us = ts ++ [.eof] :=
  ⟨fun h' => yields_unique h' (text_back tok true ts h), fun e => e ▸ text_back tok true ts h⟩

/-- The text of a stylesheet is tokenized and parsed to the rules it stands for. -/
theorem C115_text_read_partial (tok : Verif.CssTok.Env) (env : Env) (zero : Str → Bool) (l : List WRule) (hl : l ≠ []) (n : Nat)
    (h : ∀ w ∈ l, w.Ok ∧ w.nestLe n ∧ w.nestLe 63) (hw : WritableAll (sheetToks l)) (ts : List Token)
    (ht : Yields tok true (text (sheetToks l)) (ts ++ [.eof])) : parse env zero (n + 1) ts = .rules (l.map (WRule.rule zero)) := by
  have e := (C115_tokens_read tok _ hw _).1 ht
  rw [List.append_cancel_right e]
  exact C111_rules_read_partial env zero l hl n h

/-- So is a text with the mistakes of C112, without them. -/
theorem C115_text_with_mistakes_partial (tok : Verif.CssTok.Env) (env : Env) (hi : env.ignore = true) (zero : Str → Bool) (l : List WItem)
    (hl : l.filterMap WItem.rule? ≠ []) (n : Nat) (h : ∀ w ∈ l, w.Ok ∧ w.nestLe n ∧ w.nestLe 63) (hw : WritableAll (itemsToks l))
    (ts : List Token) (ht : Yields tok true (text (itemsToks l)) (ts ++ [.eof])) :
    parse env zero (n + 1) ts = .rules ((l.filterMap WItem.rule?).map (WRule2.rule zero)) := by
  have e := (C115_tokens_read tok _ hw _).1 ht
  rw [List.append_cancel_right e]
  exact C112_mistakes_left_out_partial env hi zero l hl n h

/-! ### A concrete case -/

instance (v : Str) : Decidable (Word v) := inferInstanceAs (Decidable (_ ∧ _ ∧ _ ∧ _))
instance (u : Str) : Decidable (UnitName u) := inferInstanceAs (Decidable (_ ∧ _ ∧ _ ∧ _))
instance (u : Token) : Decidable (CssTok.Ends u) := by unfold CssTok.Ends; split <;> infer_instance
instance (u : Token) : Decidable (NumberLike u) := by unfold NumberLike; split <;> infer_instance
instance (t u : Token) : Decidable (Follows t u) := by unfold Follows; split <;> infer_instance

/-- only numbers without sign and fraction -/
def writable : Token → Bool
  | .ident v => decide (Word v)
  | .function v => decide (Word v) && v != "url".toList
  | .hash v => v != [] && !v.contains (Char.ofNat 0)
  | .quotedString v => !v.contains (Char.ofNat 0)
  | .number v => v != [] && v.all (Verif.CssTok.Standard.digits.contains ·)
  | .percentage v => v != [] && v.all (Verif.CssTok.Standard.digits.contains ·)
  | .dimension v u => (v != [] && v.all (Verif.CssTok.Standard.digits.contains ·)) && decide (UnitName u)
  | .delim c => Verif.CssTok.signs.contains c
  | .whitespace | .lCurly | .rCurly | .lParen | .rParen | .lBracket | .rBracket | .comma | .colon | .semicolon => true
  | _ => false

theorem numeral_of {v : Str} (h : (v != [] && v.all (Verif.CssTok.Standard.digits.contains ·)) = true) : Numeral v := by
  simp at h
  exact ⟨[], v, [], .inl rfl, h.2, .inl ⟨rfl, h.1⟩, by simp⟩

theorem writable_ok {t : Token} (h : writable t = true) : Writable t := by
  cases t <;> simp only [writable, Bool.and_eq_true, decide_eq_true_eq, Bool.false_eq_true] at h <;> simp only [Writable]
  case ident v => exact h
  case function v => exact ⟨h.1, by simpa using h.2⟩
  case hash v => simpa using h
  case quotedString v => simpa using h
  case number v => exact numeral_of (by simpa using h)
  case percentage v => exact numeral_of (by simpa using h)
  case dimension v u => exact ⟨numeral_of (by simpa using h.1), h.2⟩
  case delim c => simpa using h

def writableAll : List Token → Bool
  | [] => true
  | [t] => writable t
  | t :: u :: r => writable t && decide (Follows t u) && writableAll (u :: r)

theorem writableAll_ok {ts : List Token} (h : writableAll ts = true) : WritableAll ts := by
  induction ts with
  | nil => trivial
  | cons t ts ih =>
    cases ts with
    | nil => exact writable_ok h
    | cons u r =>
      simp only [writableAll, Bool.and_eq_true, decide_eq_true_eq] at h
      exact ⟨writable_ok h.1.1, h.1.2, ih h.2⟩

theorem sampleRule_writable : WritableAll (sheetToks [sampleRule]) := writableAll_ok (by decide +kernel)

example (tok : Verif.CssTok.Env) : Yields tok true
    "a.b > [c=\"d\" i], :e { m : rgb(0,f) !important ; n:5px } ".toList (sheetToks [sampleRule] ++ [.eof]) := by
  have h := (C115_tokens_read tok _ sampleRule_writable _).2 rfl
  have e : text (sheetToks [sampleRule]) = "a.b > [c=\"d\" i], :e { m : rgb(0,f) !important ; n:5px } ".toList := by decide +kernel
  rwa [e] at h

example (tok : Verif.CssTok.Env) (ts : List Token) (ht : Yields tok true (text (sheetToks [sampleRule])) (ts ++ [.eof])) :
    parse (plainEnv false) isZero 64 ts = .rules [sampleRule.rule isZero] :=
  C115_text_read_partial tok _ _ [sampleRule] (by simp) 63 (by simpa using ⟨sampleRule_ok.1, sampleRule_ok.2⟩) sampleRule_writable ts ht

example (tok : Verif.CssTok.Env) (ts : List Token) (ht : Yields tok true "b{u v;w:;x:y}".toList (ts ++ [.eof])) :
    parse (plainEnv true) isZero 64 ts = .rules [meantB] := by
  refine C115_text_with_mistakes_partial tok _ rfl _ [.rule sampleRule2] (by simp [WItem.rule?]) 63
    (by simpa using ⟨sampleRule2_ok.1, sampleRule2_ok.2⟩) (writableAll_ok (by decide +kernel)) ts ?_
  have e : text (itemsToks [.rule sampleRule2]) = "b{u v;w:;x:y}".toList := by decide +kernel
  rwa [e]

/-- The rule `u + a { x: y }` is lost when it is written without the white space: `u+a` is read as a range of code points. The rule
`b` after it is read. -/
theorem C115_range_violated (tok : Verif.CssTok.Env) (ts : List Token) (ht : Yields tok true "u+a{x:y}b{x:y}".toList (ts ++ [.eof])) :
    parse (plainEnv true) isZero 64 ts = .rules [meantB] := by
  have h : Yields tok true "u+a{x:y}b{x:y}".toList
      ([.unicodeRange "u+a".toList, .lCurly, name "x", .colon, name "y", .rCurly] ++ ruleB ++ [.eof]) := by
    exact CssTok.yields_of_run (n := 20) (k := 20) rfl
  rw [List.append_cancel_right (yields_unique ht h)]
  exact Outcome.gives_eq (by decide +kernel)

end Verif.CssParse
