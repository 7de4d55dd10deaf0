import Verif.CssTok.Spec

/-!
# Tokens as they are written

The text of a token, which tokens can be written, and which may stand next to each other without anything in between. Names and strings
are written as the CSSOM says (`Cssom.ident`, `Cssom.string`).
-/

namespace Verif.CssTok

open Standard

/-- a name: it begins with ASCII characters, so that the Unicode tables do not matter, and is not the start of `-->` -/
def Word (v : Str) : Prop := v ≠ [] ∧ Char.ofNat 0 ∉ v ∧ (∀ c ∈ v.take 2, c.toNat < 128) ∧ v ≠ ['-', '-']

/-- a number: `12`, `-1.5`, `+.25` -/
def Numeral (v : Str) : Prop :=
  ∃ s ds fs, (s = [] ∨ s = ['+'] ∨ s = ['-']) ∧ (∀ c ∈ ds, c ∈ digits) ∧
    ((fs = [] ∧ ds ≠ []) ∨ ∃ es, es ≠ [] ∧ (∀ c ∈ es, c ∈ digits) ∧ fs = '.' :: es) ∧ v = s ++ ds ++ fs

/-- a unit of letters; `e` is left out since `1e+5` is a number -/
def UnitName (u : Str) : Prop := u ≠ [] ∧ (∀ c ∈ u, c ∈ letters) ∧ u ≠ ['e'] ∧ u ≠ ['E']

/-- the characters of a url that can be written without quotes and escapes -/
def PlainUrl (c : Char) : Prop := 0x20 < c.toNat ∧ c.toNat < 0x7F ∧ c ∉ ['"', '\'', '(', ')', '\\']

/-- the signs that stand for themselves -/
def signs : Str := "*>~=|^$!/+-.".toList

def Writable : Token → Prop
  | .ident v => Word v
  | .function v => Word v ∧ v ≠ "url".toList
  | .hash v => v ≠ [] ∧ Char.ofNat 0 ∉ v
  | .quotedString v => Char.ofNat 0 ∉ v
  | .url u => ∀ c ∈ u, PlainUrl c
  | .number v => Numeral v
  | .percentage v => Numeral v
  | .dimension v u => Numeral v ∧ UnitName u
  | .delim c => c ∈ signs
  | .whitespace | .lCurly | .rCurly | .lParen | .rParen | .lBracket | .rBracket | .comma | .colon | .semicolon => True
  | _ => False

def spell : Token → Str
  | .ident v => Cssom.ident v
  | .function v => Cssom.ident v ++ ['(']
  | .hash v => '#' :: Cssom.ident v
  | .quotedString v => Cssom.string v
  | .url u => "url(".toList ++ u ++ [')']
  | .number v => v
  | .percentage v => v ++ ['%']
  | .dimension v u => v ++ u
  | .delim c => [c]
  | .whitespace => [' ']
  | .lCurly => ['{']
  | .rCurly => ['}']
  | .lParen => ['(']
  | .rParen => [')']
  | .lBracket => ['[']
  | .rBracket => [']']
  | .comma => [',']
  | .colon => [':']
  | .semicolon => [';']
  | _ => []

/-- a token that does not go on with a word before it -/
def Ends : Token → Prop
  | .whitespace | .comma | .colon | .semicolon | .lCurly | .rCurly | .rParen | .lBracket | .rBracket | .quotedString _ | .hash _ => True
  | .delim c => c ≠ '-'
  | _ => False

/-- a number, with or without a unit -/
def NumberLike : Token → Prop
  | .number _ | .percentage _ | .dimension _ _ => True
  | _ => False

/-- the second token may follow the first at once -/
def Follows : Token → Token → Prop
  | .ident v, u => Ends u ∧ (v = ['u'] ∨ v = ['U'] → u ≠ .delim '+')
  | .hash _, u => Ends u
  | .dimension _ _, u => Ends u
  | .number _, u => Ends u ∧ u ≠ .delim '.'
  | .whitespace, u => u ≠ .whitespace
  | .delim c, u =>
    (c = '+' → ¬ NumberLike u ∧ u ≠ .delim '.') ∧ (c = '-' → u = .whitespace) ∧ (c = '.' → ¬ NumberLike u) ∧ (c = '/' → u ≠ .delim '*')
  | _, _ => True

/-- tokens that can be written one after the other -/
def WritableAll : List Token → Prop
  | [] => True
  | [t] => Writable t
  | t :: u :: r => Writable t ∧ Follows t u ∧ WritableAll (u :: r)

/-- the text of tokens -/
def text (ts : List Token) : Str := ts.flatMap spell

end Verif.CssTok
