import Verif.HtmlTok.Model
import Verif.CharRef.Spec
import Mathlib.Logic.Relation
import Mathlib.Logic.Function.Iterate

/-!
# The tokenizer of the HTML standard

WHATWG HTML, 13.2.5 "Tokenization", state by state and in its words. Nothing of the model is used but the types of what goes in
and comes out: `Token`, `Content`, `Parser`. Successive character tokens are gathered into one text token. Parse errors are left
out, but for one: `endTagWithAttributes` records that an end tag with attributes was emitted.

References (13.2.5.72 and following) are the relation `CharRef.Ref` of `Verif.CharRef.Spec`.
-/

namespace Verif.HtmlTok.Standard

open Verif.CharRef (Ref)

/-- 13.2.3.5 "Preprocessing the input stream": newlines are normalized -/
def normalizeNewlines : Str → Str
  | [] => []
  | [c] => if c = '\r' then ['\n'] else [c]
  | c :: d :: rest =>
    if c = '\r' then (if d = '\n' then '\n' :: normalizeNewlines rest else '\n' :: normalizeNewlines (d :: rest))
    else c :: normalizeNewlines (d :: rest)

inductive State
  | data | rcdata | rawtext | scriptData | plaintext | tagOpen | endTagOpen | tagName
  | rcdataLessThanSign | rcdataEndTagOpen | rcdataEndTagName
  | rawtextLessThanSign | rawtextEndTagOpen | rawtextEndTagName
  | scriptDataLessThanSign | scriptDataEndTagOpen | scriptDataEndTagName | scriptDataEscapeStart | scriptDataEscapeStartDash
  | scriptDataEscaped | scriptDataEscapedDash | scriptDataEscapedDashDash | scriptDataEscapedLessThanSign
  | scriptDataEscapedEndTagOpen | scriptDataEscapedEndTagName | scriptDataDoubleEscapeStart | scriptDataDoubleEscaped
  | scriptDataDoubleEscapedDash | scriptDataDoubleEscapedDashDash | scriptDataDoubleEscapedLessThanSign
  | scriptDataDoubleEscapeEnd | beforeAttributeName | attributeName | afterAttributeName | beforeAttributeValue
  | attributeValueDoubleQuoted | attributeValueSingleQuoted | attributeValueUnquoted | afterAttributeValueQuoted
  | selfClosingStartTag | bogusComment | markupDeclarationOpen | commentStart | commentStartDash | comment
  | commentLessThanSign | commentLessThanSignBang | commentLessThanSignBangDash | commentLessThanSignBangDashDash
  | commentEndDash | commentEnd | commentEndBang | doctype | beforeDoctypeName | doctypeName | afterDoctypeName
  | afterDoctypePublicKeyword | beforeDoctypePublicIdentifier | doctypePublicIdentifierDoubleQuoted
  | doctypePublicIdentifierSingleQuoted | afterDoctypePublicIdentifier | betweenDoctypePublicAndSystemIdentifiers
  | afterDoctypeSystemKeyword | beforeDoctypeSystemIdentifier | doctypeSystemIdentifierDoubleQuoted
  | doctypeSystemIdentifierSingleQuoted | afterDoctypeSystemIdentifier | bogusDoctype | cdataSection | cdataSectionBracket
  | cdataSectionEnd | characterReference
  deriving DecidableEq, Repr

/-- a start or end tag token in the making; `attrs` are its attributes in the order written, the last one being the current
attribute -/
structure Tag where
  isEnd : Bool
  name : Str
  selfClosing : Bool
  attrs : List (Str × Str)

/-- a DOCTYPE token in the making -/
structure Doctype where
  name : Option Str
  quirks : Bool
  pub : Option Str
  sys : Option Str

/-- The tokenizer: its state and return state, what is left of the input, the tokens in the making, the temporary buffer, the
last start tag's name, the character tokens emitted since the last other token, the tokens before those, and whether it has
emitted the end-of-file token. -/
structure Machine where
  state : State
  ret : State
  input : Str
  tag : Tag
  comment : Str
  doctype : Doctype
  buffer : Str
  lastStart : Str
  chars : Str
  out : List Token
  endTagWithAttributes : Bool
  stopped : Bool

def whitespace : List Char := ['\t', '\n', '\x0C', ' ']
def asciiUpper : List Char := "ABCDEFGHIJKLMNOPQRSTUVWXYZ".toList
def asciiAlpha : List Char := asciiUpper ++ "abcdefghijklmnopqrstuvwxyz".toList
/-- "the lowercase version of the current input character (add 0x0020 to the character's code point)" -/
def lowercase (c : Char) : Char := if c ∈ asciiUpper then Char.ofNat (c.toNat + 0x20) else c
abbrev null : Char := Char.ofNat 0
abbrev replacement : Char := Char.ofNat 0xFFFD

/-- the text starts with the word `w` (in capitals), in any mixture of cases (ASCII case-insensitively) -/
def startsWith (w text : Str) : Prop := (text.take w.length).map lowercase = w.map lowercase

instance (w text : Str) : Decidable (startsWith w text) := by unfold startsWith; infer_instance

/-- the attributes of a token: of several with one name only the first -/
def firsts : List (Str × Str) → List (Str × Str)
  | [] => []
  | a :: rest => a :: (firsts rest).filter (fun b => b.1 ≠ a.1)

/-- the states of 13.2.5.1-5 the tree construction stage may ask for -/
def ofContent : Content → State
  | .data => .data
  | .rcdata => .rcdata
  | .rawtext => .rawtext
  | .script => .scriptData
  | .plaintext => .plaintext

namespace Machine

/-- switch to a state (a character has been consumed, or nothing but the state changes) -/
def switch (m : Machine) (s : State) : Machine := { m with state := s }

def emitChars (m : Machine) (s : Str) : Machine := { m with chars := m.chars ++ s }

/-- emit a token that is not a character -/
def emit (m : Machine) (k : Token) : Machine :=
  { m with out := m.out ++ (if m.chars = [] then [] else [.text m.chars]) ++ [k], chars := [] }

def emitEof (m : Machine) : Machine := { m.emit .eof with stopped := true }

/-- "Switch to the data state. Emit the current tag token." The tree construction stage may then change the state. -/
def emitTag (p : Parser) (m : Machine) : Machine :=
  if m.tag.isEnd then
    { (m.switch .data).emit (.endTag m.tag.name) with
      endTagWithAttributes := m.endTagWithAttributes || decide (m.tag.attrs ≠ []) }
  else
    let m' := { (m.switch .data).emit (.startTag m.tag.name m.tag.selfClosing (firsts m.tag.attrs)) with
      lastStart := m.tag.name }
    m'.switch ((p.switch m'.out).elim .data ofContent)

def emitComment (m : Machine) : Machine := m.emit (.comment m.comment)

def emitDoctype (m : Machine) : Machine :=
  m.emit (.doctype m.doctype.name m.doctype.quirks m.doctype.pub m.doctype.sys)

def newTag (m : Machine) (isEnd : Bool) : Machine := { m with tag := ⟨isEnd, [], false, []⟩ }

def appendName (m : Machine) (c : Char) : Machine := { m with tag := { m.tag with name := m.tag.name ++ [c] } }

/-- "Start a new attribute in the current tag token", with this name and an empty value -/
def newAttribute (m : Machine) (name : Str) : Machine :=
  { m with tag := { m.tag with attrs := m.tag.attrs ++ [(name, [])] } }

/-- the current attribute changed -/
def onAttribute (m : Machine) (f : Str × Str → Str × Str) : Machine :=
  { m with tag := { m.tag with attrs := m.tag.attrs.dropLast ++ (m.tag.attrs.getLast?.map f).toList } }

def appendAttrName (m : Machine) (c : Char) : Machine := m.onAttribute fun a => (a.1 ++ [c], a.2)
def appendAttrValue (m : Machine) (s : Str) : Machine := m.onAttribute fun a => (a.1, a.2 ++ s)

def appendComment (m : Machine) (s : Str) : Machine := { m with comment := m.comment ++ s }

def newDoctype (m : Machine) (name : Option Str) : Machine := { m with doctype := ⟨name, false, none, none⟩ }
def appendDoctypeName (m : Machine) (c : Char) : Machine :=
  { m with doctype := { m.doctype with name := m.doctype.name.map (· ++ [c]) } }
def forceQuirks (m : Machine) : Machine := { m with doctype := { m.doctype with quirks := true } }
def emptyPublic (m : Machine) : Machine := { m with doctype := { m.doctype with pub := some [] } }
def emptySystem (m : Machine) : Machine := { m with doctype := { m.doctype with sys := some [] } }
def appendPublic (m : Machine) (c : Char) : Machine :=
  { m with doctype := { m.doctype with pub := m.doctype.pub.map (· ++ [c]) } }
def appendSystem (m : Machine) (c : Char) : Machine :=
  { m with doctype := { m.doctype with sys := m.doctype.sys.map (· ++ [c]) } }

/-- "appropriate end tag token" -/
def appropriate (m : Machine) : Bool := m.tag.name = m.lastStart

/-- EOF in a DOCTYPE: "Set the current DOCTYPE token's force-quirks flag to on. Emit the current DOCTYPE token. Emit an
end-of-file token." -/
def eofInDoctype (m : Machine) : Machine := m.forceQuirks.emitDoctype.emitEof

/-- 13.2.5.11, .14, .24: "RCDATA/RAWTEXT/script data escaped end tag name state" and 13.2.5.17 "script data end tag name
state" differ only in the state they fall back to -/
def endTagName (p : Parser) (m : Machine) (back : State) : Machine :=
  let otherwise := (m.emitChars (['<', '/'] ++ m.buffer)).switch back
  match m.input with
  | [] => otherwise
  | c :: rest =>
    if c ∈ whitespace ∧ m.appropriate = true then { m with input := rest }.switch .beforeAttributeName
    else if c = '/' ∧ m.appropriate = true then { m with input := rest }.switch .selfClosingStartTag
    else if c = '>' ∧ m.appropriate = true then emitTag p { m with input := rest }
    else if c ∈ asciiAlpha then { m.appendName (lowercase c) with input := rest, buffer := m.buffer ++ [c] }
    else otherwise

end Machine

open Machine in
/-- 13.2.5.1 to 13.2.5.71: what the tokenizer does in each state but the character reference state. `m'` is the machine with
the next input character consumed; "reconsume" leaves it in the input. -/
def act (p : Parser) (m : Machine) : Machine :=
  match m.state, m.input with
  -- 13.2.5.1 Data state
  | .data, [] => m.emitEof
  | .data, c :: rest =>
    let m' := { m with input := rest }
    if c = '&' then { m' with ret := .data, state := .characterReference }
    else if c = '<' then m'.switch .tagOpen
    else m'.emitChars [c]
  -- 13.2.5.2 RCDATA state
  | .rcdata, [] => m.emitEof
  | .rcdata, c :: rest =>
    let m' := { m with input := rest }
    if c = '&' then { m' with ret := .rcdata, state := .characterReference }
    else if c = '<' then m'.switch .rcdataLessThanSign
    else if c = null then m'.emitChars [replacement]
    else m'.emitChars [c]
  -- 13.2.5.3 RAWTEXT state
  | .rawtext, [] => m.emitEof
  | .rawtext, c :: rest =>
    let m' := { m with input := rest }
    if c = '<' then m'.switch .rawtextLessThanSign
    else if c = null then m'.emitChars [replacement]
    else m'.emitChars [c]
  -- 13.2.5.4 Script data state
  | .scriptData, [] => m.emitEof
  | .scriptData, c :: rest =>
    let m' := { m with input := rest }
    if c = '<' then m'.switch .scriptDataLessThanSign
    else if c = null then m'.emitChars [replacement]
    else m'.emitChars [c]
  -- 13.2.5.5 PLAINTEXT state
  | .plaintext, [] => m.emitEof
  | .plaintext, c :: rest =>
    let m' := { m with input := rest }
    if c = null then m'.emitChars [replacement] else m'.emitChars [c]
  -- 13.2.5.6 Tag open state
  | .tagOpen, [] => (m.emitChars ['<']).emitEof
  | .tagOpen, c :: rest =>
    let m' := { m with input := rest }
    if c = '!' then m'.switch .markupDeclarationOpen
    else if c = '/' then m'.switch .endTagOpen
    else if c ∈ asciiAlpha then (m.newTag false).switch .tagName
    else if c = '?' then { m with comment := [] }.switch .bogusComment
    else (m.emitChars ['<']).switch .data
  -- 13.2.5.7 End tag open state
  | .endTagOpen, [] => (m.emitChars ['<', '/']).emitEof
  | .endTagOpen, c :: rest =>
    let m' := { m with input := rest }
    if c ∈ asciiAlpha then (m.newTag true).switch .tagName
    else if c = '>' then m'.switch .data
    else { m with comment := [] }.switch .bogusComment
  -- 13.2.5.8 Tag name state
  | .tagName, [] => m.emitEof
  | .tagName, c :: rest =>
    let m' := { m with input := rest }
    if c ∈ whitespace then m'.switch .beforeAttributeName
    else if c = '/' then m'.switch .selfClosingStartTag
    else if c = '>' then emitTag p m'
    else if c ∈ asciiUpper then m'.appendName (lowercase c)
    else if c = null then m'.appendName replacement
    else m'.appendName c
  -- 13.2.5.9 RCDATA less-than sign state
  | .rcdataLessThanSign, [] => (m.emitChars ['<']).switch .rcdata
  | .rcdataLessThanSign, c :: rest =>
    if c = '/' then { m with input := rest, buffer := [] }.switch .rcdataEndTagOpen
    else (m.emitChars ['<']).switch .rcdata
  -- 13.2.5.10 RCDATA end tag open state
  | .rcdataEndTagOpen, [] => (m.emitChars ['<', '/']).switch .rcdata
  | .rcdataEndTagOpen, c :: _ =>
    if c ∈ asciiAlpha then (m.newTag true).switch .rcdataEndTagName else (m.emitChars ['<', '/']).switch .rcdata
  -- 13.2.5.11 RCDATA end tag name state
  | .rcdataEndTagName, _ => endTagName p m .rcdata
  -- 13.2.5.12 RAWTEXT less-than sign state
  | .rawtextLessThanSign, [] => (m.emitChars ['<']).switch .rawtext
  | .rawtextLessThanSign, c :: rest =>
    if c = '/' then { m with input := rest, buffer := [] }.switch .rawtextEndTagOpen
    else (m.emitChars ['<']).switch .rawtext
  -- 13.2.5.13 RAWTEXT end tag open state
  | .rawtextEndTagOpen, [] => (m.emitChars ['<', '/']).switch .rawtext
  | .rawtextEndTagOpen, c :: _ =>
    if c ∈ asciiAlpha then (m.newTag true).switch .rawtextEndTagName else (m.emitChars ['<', '/']).switch .rawtext
  -- 13.2.5.14 RAWTEXT end tag name state
  | .rawtextEndTagName, _ => endTagName p m .rawtext
  -- 13.2.5.15 Script data less-than sign state
  | .scriptDataLessThanSign, [] => (m.emitChars ['<']).switch .scriptData
  | .scriptDataLessThanSign, c :: rest =>
    if c = '/' then { m with input := rest, buffer := [] }.switch .scriptDataEndTagOpen
    else if c = '!' then ({ m with input := rest }.switch .scriptDataEscapeStart).emitChars ['<', '!']
    else (m.emitChars ['<']).switch .scriptData
  -- 13.2.5.16 Script data end tag open state
  | .scriptDataEndTagOpen, [] => (m.emitChars ['<', '/']).switch .scriptData
  | .scriptDataEndTagOpen, c :: _ =>
    if c ∈ asciiAlpha then (m.newTag true).switch .scriptDataEndTagName else (m.emitChars ['<', '/']).switch .scriptData
  -- 13.2.5.17 Script data end tag name state
  | .scriptDataEndTagName, _ => endTagName p m .scriptData
  -- 13.2.5.18 Script data escape start state
  | .scriptDataEscapeStart, [] => m.switch .scriptData
  | .scriptDataEscapeStart, c :: rest =>
    if c = '-' then ({ m with input := rest }.switch .scriptDataEscapeStartDash).emitChars ['-']
    else m.switch .scriptData
  -- 13.2.5.19 Script data escape start dash state
  | .scriptDataEscapeStartDash, [] => m.switch .scriptData
  | .scriptDataEscapeStartDash, c :: rest =>
    if c = '-' then ({ m with input := rest }.switch .scriptDataEscapedDashDash).emitChars ['-']
    else m.switch .scriptData
  -- 13.2.5.20 Script data escaped state
  | .scriptDataEscaped, [] => m.emitEof
  | .scriptDataEscaped, c :: rest =>
    let m' := { m with input := rest }
    if c = '-' then (m'.switch .scriptDataEscapedDash).emitChars ['-']
    else if c = '<' then m'.switch .scriptDataEscapedLessThanSign
    else if c = null then m'.emitChars [replacement]
    else m'.emitChars [c]
  -- 13.2.5.21 Script data escaped dash state
  | .scriptDataEscapedDash, [] => m.emitEof
  | .scriptDataEscapedDash, c :: rest =>
    let m' := { m with input := rest }
    if c = '-' then (m'.switch .scriptDataEscapedDashDash).emitChars ['-']
    else if c = '<' then m'.switch .scriptDataEscapedLessThanSign
    else if c = null then (m'.switch .scriptDataEscaped).emitChars [replacement]
    else (m'.switch .scriptDataEscaped).emitChars [c]
  -- 13.2.5.22 Script data escaped dash dash state
  | .scriptDataEscapedDashDash, [] => m.emitEof
  | .scriptDataEscapedDashDash, c :: rest =>
    let m' := { m with input := rest }
    if c = '-' then m'.emitChars ['-']
    else if c = '<' then m'.switch .scriptDataEscapedLessThanSign
    else if c = '>' then (m'.switch .scriptData).emitChars ['>']
    else if c = null then (m'.switch .scriptDataEscaped).emitChars [replacement]
    else (m'.switch .scriptDataEscaped).emitChars [c]
  -- 13.2.5.23 Script data escaped less-than sign state
  | .scriptDataEscapedLessThanSign, [] => (m.emitChars ['<']).switch .scriptDataEscaped
  | .scriptDataEscapedLessThanSign, c :: rest =>
    if c = '/' then { m with input := rest, buffer := [] }.switch .scriptDataEscapedEndTagOpen
    else if c ∈ asciiAlpha then ({ m with buffer := [] }.emitChars ['<']).switch .scriptDataDoubleEscapeStart
    else (m.emitChars ['<']).switch .scriptDataEscaped
  -- 13.2.5.24 Script data escaped end tag open state
  | .scriptDataEscapedEndTagOpen, [] => (m.emitChars ['<', '/']).switch .scriptDataEscaped
  | .scriptDataEscapedEndTagOpen, c :: _ =>
    if c ∈ asciiAlpha then (m.newTag true).switch .scriptDataEscapedEndTagName
    else (m.emitChars ['<', '/']).switch .scriptDataEscaped
  -- 13.2.5.25 Script data escaped end tag name state
  | .scriptDataEscapedEndTagName, _ => endTagName p m .scriptDataEscaped
  -- 13.2.5.26 Script data double escape start state
  | .scriptDataDoubleEscapeStart, [] => m.switch .scriptDataEscaped
  | .scriptDataDoubleEscapeStart, c :: rest =>
    let m' := { m with input := rest }
    if c ∈ whitespace ∨ c = '/' ∨ c = '>' then
      (if m.buffer = "script".toList then (m'.switch .scriptDataDoubleEscaped).emitChars [c]
       else (m'.switch .scriptDataEscaped).emitChars [c])
    else if c ∈ asciiAlpha then { m'.emitChars [c] with buffer := m.buffer ++ [lowercase c] }
    else m.switch .scriptDataEscaped
  -- 13.2.5.27 Script data double escaped state
  | .scriptDataDoubleEscaped, [] => m.emitEof
  | .scriptDataDoubleEscaped, c :: rest =>
    let m' := { m with input := rest }
    if c = '-' then (m'.switch .scriptDataDoubleEscapedDash).emitChars ['-']
    else if c = '<' then (m'.switch .scriptDataDoubleEscapedLessThanSign).emitChars ['<']
    else if c = null then m'.emitChars [replacement]
    else m'.emitChars [c]
  -- 13.2.5.28 Script data double escaped dash state
  | .scriptDataDoubleEscapedDash, [] => m.emitEof
  | .scriptDataDoubleEscapedDash, c :: rest =>
    let m' := { m with input := rest }
    if c = '-' then (m'.switch .scriptDataDoubleEscapedDashDash).emitChars ['-']
    else if c = '<' then (m'.switch .scriptDataDoubleEscapedLessThanSign).emitChars ['<']
    else if c = null then (m'.switch .scriptDataDoubleEscaped).emitChars [replacement]
    else (m'.switch .scriptDataDoubleEscaped).emitChars [c]
  -- 13.2.5.29 Script data double escaped dash dash state
  | .scriptDataDoubleEscapedDashDash, [] => m.emitEof
  | .scriptDataDoubleEscapedDashDash, c :: rest =>
    let m' := { m with input := rest }
    if c = '-' then m'.emitChars ['-']
    else if c = '<' then (m'.switch .scriptDataDoubleEscapedLessThanSign).emitChars ['<']
    else if c = '>' then (m'.switch .scriptData).emitChars ['>']
    else if c = null then (m'.switch .scriptDataDoubleEscaped).emitChars [replacement]
    else (m'.switch .scriptDataDoubleEscaped).emitChars [c]
  -- 13.2.5.30 Script data double escaped less-than sign state
  | .scriptDataDoubleEscapedLessThanSign, [] => m.switch .scriptDataDoubleEscaped
  | .scriptDataDoubleEscapedLessThanSign, c :: rest =>
    if c = '/' then ({ m with input := rest, buffer := [] }.switch .scriptDataDoubleEscapeEnd).emitChars ['/']
    else m.switch .scriptDataDoubleEscaped
  -- 13.2.5.31 Script data double escape end state
  | .scriptDataDoubleEscapeEnd, [] => m.switch .scriptDataDoubleEscaped
  | .scriptDataDoubleEscapeEnd, c :: rest =>
    let m' := { m with input := rest }
    if c ∈ whitespace ∨ c = '/' ∨ c = '>' then
      (if m.buffer = "script".toList then (m'.switch .scriptDataEscaped).emitChars [c]
       else (m'.switch .scriptDataDoubleEscaped).emitChars [c])
    else if c ∈ asciiAlpha then { m'.emitChars [c] with buffer := m.buffer ++ [lowercase c] }
    else m.switch .scriptDataDoubleEscaped
  -- 13.2.5.32 Before attribute name state
  | .beforeAttributeName, [] => m.switch .afterAttributeName
  | .beforeAttributeName, c :: rest =>
    let m' := { m with input := rest }
    if c ∈ whitespace then m'
    else if c = '/' ∨ c = '>' then m.switch .afterAttributeName
    else if c = '=' then (m'.newAttribute [c]).switch .attributeName
    else (m.newAttribute []).switch .attributeName
  -- 13.2.5.33 Attribute name state
  | .attributeName, [] => m.switch .afterAttributeName
  | .attributeName, c :: rest =>
    let m' := { m with input := rest }
    if c ∈ whitespace ∨ c = '/' ∨ c = '>' then m.switch .afterAttributeName
    else if c = '=' then m'.switch .beforeAttributeValue
    else if c ∈ asciiUpper then m'.appendAttrName (lowercase c)
    else if c = null then m'.appendAttrName replacement
    else m'.appendAttrName c
  -- 13.2.5.34 After attribute name state
  | .afterAttributeName, [] => m.emitEof
  | .afterAttributeName, c :: rest =>
    let m' := { m with input := rest }
    if c ∈ whitespace then m'
    else if c = '/' then m'.switch .selfClosingStartTag
    else if c = '=' then m'.switch .beforeAttributeValue
    else if c = '>' then emitTag p m'
    else (m.newAttribute []).switch .attributeName
  -- 13.2.5.35 Before attribute value state
  | .beforeAttributeValue, [] => m.switch .attributeValueUnquoted
  | .beforeAttributeValue, c :: rest =>
    let m' := { m with input := rest }
    if c ∈ whitespace then m'
    else if c = '"' then m'.switch .attributeValueDoubleQuoted
    else if c = '\'' then m'.switch .attributeValueSingleQuoted
    else if c = '>' then emitTag p m'
    else m.switch .attributeValueUnquoted
  -- 13.2.5.36 Attribute value (double-quoted) state
  | .attributeValueDoubleQuoted, [] => m.emitEof
  | .attributeValueDoubleQuoted, c :: rest =>
    let m' := { m with input := rest }
    if c = '"' then m'.switch .afterAttributeValueQuoted
    else if c = '&' then { m' with ret := .attributeValueDoubleQuoted, state := .characterReference }
    else if c = null then m'.appendAttrValue [replacement]
    else m'.appendAttrValue [c]
  -- 13.2.5.37 Attribute value (single-quoted) state
  | .attributeValueSingleQuoted, [] => m.emitEof
  | .attributeValueSingleQuoted, c :: rest =>
    let m' := { m with input := rest }
    if c = '\'' then m'.switch .afterAttributeValueQuoted
    else if c = '&' then { m' with ret := .attributeValueSingleQuoted, state := .characterReference }
    else if c = null then m'.appendAttrValue [replacement]
    else m'.appendAttrValue [c]
  -- 13.2.5.38 Attribute value (unquoted) state
  | .attributeValueUnquoted, [] => m.emitEof
  | .attributeValueUnquoted, c :: rest =>
    let m' := { m with input := rest }
    if c ∈ whitespace then m'.switch .beforeAttributeName
    else if c = '&' then { m' with ret := .attributeValueUnquoted, state := .characterReference }
    else if c = '>' then emitTag p m'
    else if c = null then m'.appendAttrValue [replacement]
    else m'.appendAttrValue [c]
  -- 13.2.5.39 After attribute value (quoted) state
  | .afterAttributeValueQuoted, [] => m.emitEof
  | .afterAttributeValueQuoted, c :: rest =>
    let m' := { m with input := rest }
    if c ∈ whitespace then m'.switch .beforeAttributeName
    else if c = '/' then m'.switch .selfClosingStartTag
    else if c = '>' then emitTag p m'
    else m.switch .beforeAttributeName
  -- 13.2.5.40 Self-closing start tag state
  | .selfClosingStartTag, [] => m.emitEof
  | .selfClosingStartTag, c :: rest =>
    if c = '>' then emitTag p { m with input := rest, tag := { m.tag with selfClosing := true } }
    else m.switch .beforeAttributeName
  -- 13.2.5.41 Bogus comment state
  | .bogusComment, [] => m.emitComment.emitEof
  | .bogusComment, c :: rest =>
    let m' := { m with input := rest }
    if c = '>' then (m'.switch .data).emitComment
    else if c = null then m'.appendComment [replacement]
    else m'.appendComment [c]
  -- 13.2.5.42 Markup declaration open state
  | .markupDeclarationOpen, input =>
    if input.take 2 = ['-', '-'] then { m with input := input.drop 2, comment := [] }.switch .commentStart
    else if startsWith "DOCTYPE".toList input then { m with input := input.drop 7 }.switch .doctype
    else if input.take 7 = "[CDATA[".toList then
      (if p.foreign m.out then { m with input := input.drop 7 }.switch .cdataSection
       else { m with input := input.drop 7, comment := "[CDATA[".toList }.switch .bogusComment)
    else { m with comment := [] }.switch .bogusComment
  -- 13.2.5.43 Comment start state
  | .commentStart, [] => m.switch .comment
  | .commentStart, c :: rest =>
    let m' := { m with input := rest }
    if c = '-' then m'.switch .commentStartDash
    else if c = '>' then (m'.switch .data).emitComment
    else m.switch .comment
  -- 13.2.5.44 Comment start dash state
  | .commentStartDash, [] => m.emitComment.emitEof
  | .commentStartDash, c :: rest =>
    let m' := { m with input := rest }
    if c = '-' then m'.switch .commentEnd
    else if c = '>' then (m'.switch .data).emitComment
    else (m.appendComment ['-']).switch .comment
  -- 13.2.5.45 Comment state
  | .comment, [] => m.emitComment.emitEof
  | .comment, c :: rest =>
    let m' := { m with input := rest }
    if c = '<' then (m'.appendComment [c]).switch .commentLessThanSign
    else if c = '-' then m'.switch .commentEndDash
    else if c = null then m'.appendComment [replacement]
    else m'.appendComment [c]
  -- 13.2.5.46 Comment less-than sign state
  | .commentLessThanSign, [] => m.switch .comment
  | .commentLessThanSign, c :: rest =>
    let m' := { m with input := rest }
    if c = '!' then (m'.appendComment [c]).switch .commentLessThanSignBang
    else if c = '<' then m'.appendComment [c]
    else m.switch .comment
  -- 13.2.5.47 Comment less-than sign bang state
  | .commentLessThanSignBang, [] => m.switch .comment
  | .commentLessThanSignBang, c :: rest =>
    if c = '-' then { m with input := rest }.switch .commentLessThanSignBangDash
    else m.switch .comment
  -- 13.2.5.48 Comment less-than sign bang dash state
  | .commentLessThanSignBangDash, [] => m.switch .commentEndDash
  | .commentLessThanSignBangDash, c :: rest =>
    if c = '-' then { m with input := rest }.switch .commentLessThanSignBangDashDash
    else m.switch .commentEndDash
  -- 13.2.5.49 Comment less-than sign bang dash dash state
  | .commentLessThanSignBangDashDash, _ => m.switch .commentEnd
  -- 13.2.5.50 Comment end dash state
  | .commentEndDash, [] => m.emitComment.emitEof
  | .commentEndDash, c :: rest =>
    if c = '-' then { m with input := rest }.switch .commentEnd
    else (m.appendComment ['-']).switch .comment
  -- 13.2.5.51 Comment end state
  | .commentEnd, [] => m.emitComment.emitEof
  | .commentEnd, c :: rest =>
    let m' := { m with input := rest }
    if c = '>' then (m'.switch .data).emitComment
    else if c = '!' then m'.switch .commentEndBang
    else if c = '-' then m'.appendComment ['-']
    else (m.appendComment ['-', '-']).switch .comment
  -- 13.2.5.52 Comment end bang state
  | .commentEndBang, [] => m.emitComment.emitEof
  | .commentEndBang, c :: rest =>
    let m' := { m with input := rest }
    if c = '-' then (m'.appendComment ['-', '-', '!']).switch .commentEndDash
    else if c = '>' then (m'.switch .data).emitComment
    else (m.appendComment ['-', '-', '!']).switch .comment
  -- 13.2.5.53 DOCTYPE state
  | .doctype, [] => (m.newDoctype none).eofInDoctype
  | .doctype, c :: rest =>
    if c ∈ whitespace then { m with input := rest }.switch .beforeDoctypeName
    else m.switch .beforeDoctypeName
  -- 13.2.5.54 Before DOCTYPE name state
  | .beforeDoctypeName, [] => (m.newDoctype none).eofInDoctype
  | .beforeDoctypeName, c :: rest =>
    let m' := { m with input := rest }
    if c ∈ whitespace then m'
    else if c ∈ asciiUpper then (m'.newDoctype (some [lowercase c])).switch .doctypeName
    else if c = null then (m'.newDoctype (some [replacement])).switch .doctypeName
    else if c = '>' then ((m'.newDoctype none).forceQuirks.switch .data).emitDoctype
    else (m'.newDoctype (some [c])).switch .doctypeName
  -- 13.2.5.55 DOCTYPE name state
  | .doctypeName, [] => m.eofInDoctype
  | .doctypeName, c :: rest =>
    let m' := { m with input := rest }
    if c ∈ whitespace then m'.switch .afterDoctypeName
    else if c = '>' then (m'.switch .data).emitDoctype
    else if c ∈ asciiUpper then m'.appendDoctypeName (lowercase c)
    else if c = null then m'.appendDoctypeName replacement
    else m'.appendDoctypeName c
  -- 13.2.5.56 After DOCTYPE name state
  | .afterDoctypeName, [] => m.eofInDoctype
  | .afterDoctypeName, c :: rest =>
    let m' := { m with input := rest }
    if c ∈ whitespace then m'
    else if c = '>' then (m'.switch .data).emitDoctype
    else if startsWith "PUBLIC".toList (c :: rest) then
      { m with input := (c :: rest).drop 6 }.switch .afterDoctypePublicKeyword
    else if startsWith "SYSTEM".toList (c :: rest) then
      { m with input := (c :: rest).drop 6 }.switch .afterDoctypeSystemKeyword
    else m.forceQuirks.switch .bogusDoctype
  -- 13.2.5.57 After DOCTYPE public keyword state
  | .afterDoctypePublicKeyword, [] => m.eofInDoctype
  | .afterDoctypePublicKeyword, c :: rest =>
    let m' := { m with input := rest }
    if c ∈ whitespace then m'.switch .beforeDoctypePublicIdentifier
    else if c = '"' then m'.emptyPublic.switch .doctypePublicIdentifierDoubleQuoted
    else if c = '\'' then m'.emptyPublic.switch .doctypePublicIdentifierSingleQuoted
    else if c = '>' then (m'.forceQuirks.switch .data).emitDoctype
    else m.forceQuirks.switch .bogusDoctype
  -- 13.2.5.58 Before DOCTYPE public identifier state
  | .beforeDoctypePublicIdentifier, [] => m.eofInDoctype
  | .beforeDoctypePublicIdentifier, c :: rest =>
    let m' := { m with input := rest }
    if c ∈ whitespace then m'
    else if c = '"' then m'.emptyPublic.switch .doctypePublicIdentifierDoubleQuoted
    else if c = '\'' then m'.emptyPublic.switch .doctypePublicIdentifierSingleQuoted
    else if c = '>' then (m'.forceQuirks.switch .data).emitDoctype
    else m.forceQuirks.switch .bogusDoctype
  -- 13.2.5.59 DOCTYPE public identifier (double-quoted) state
  | .doctypePublicIdentifierDoubleQuoted, [] => m.eofInDoctype
  | .doctypePublicIdentifierDoubleQuoted, c :: rest =>
    let m' := { m with input := rest }
    if c = '"' then m'.switch .afterDoctypePublicIdentifier
    else if c = null then m'.appendPublic replacement
    else if c = '>' then (m'.forceQuirks.switch .data).emitDoctype
    else m'.appendPublic c
  -- 13.2.5.60 DOCTYPE public identifier (single-quoted) state
  | .doctypePublicIdentifierSingleQuoted, [] => m.eofInDoctype
  | .doctypePublicIdentifierSingleQuoted, c :: rest =>
    let m' := { m with input := rest }
    if c = '\'' then m'.switch .afterDoctypePublicIdentifier
    else if c = null then m'.appendPublic replacement
    else if c = '>' then (m'.forceQuirks.switch .data).emitDoctype
    else m'.appendPublic c
  -- 13.2.5.61 After DOCTYPE public identifier state
  | .afterDoctypePublicIdentifier, [] => m.eofInDoctype
  | .afterDoctypePublicIdentifier, c :: rest =>
    let m' := { m with input := rest }
    if c ∈ whitespace then m'.switch .betweenDoctypePublicAndSystemIdentifiers
    else if c = '>' then (m'.switch .data).emitDoctype
    else if c = '"' then m'.emptySystem.switch .doctypeSystemIdentifierDoubleQuoted
    else if c = '\'' then m'.emptySystem.switch .doctypeSystemIdentifierSingleQuoted
    else m.forceQuirks.switch .bogusDoctype
  -- 13.2.5.62 Between DOCTYPE public and system identifiers state
  | .betweenDoctypePublicAndSystemIdentifiers, [] => m.eofInDoctype
  | .betweenDoctypePublicAndSystemIdentifiers, c :: rest =>
    let m' := { m with input := rest }
    if c ∈ whitespace then m'
    else if c = '>' then (m'.switch .data).emitDoctype
    else if c = '"' then m'.emptySystem.switch .doctypeSystemIdentifierDoubleQuoted
    else if c = '\'' then m'.emptySystem.switch .doctypeSystemIdentifierSingleQuoted
    else m.forceQuirks.switch .bogusDoctype
  -- 13.2.5.63 After DOCTYPE system keyword state
  | .afterDoctypeSystemKeyword, [] => m.eofInDoctype
  | .afterDoctypeSystemKeyword, c :: rest =>
    let m' := { m with input := rest }
    if c ∈ whitespace then m'.switch .beforeDoctypeSystemIdentifier
    else if c = '"' then m'.emptySystem.switch .doctypeSystemIdentifierDoubleQuoted
    else if c = '\'' then m'.emptySystem.switch .doctypeSystemIdentifierSingleQuoted
    else if c = '>' then (m'.forceQuirks.switch .data).emitDoctype
    else m.forceQuirks.switch .bogusDoctype
  -- 13.2.5.64 Before DOCTYPE system identifier state
  | .beforeDoctypeSystemIdentifier, [] => m.eofInDoctype
  | .beforeDoctypeSystemIdentifier, c :: rest =>
    let m' := { m with input := rest }
    if c ∈ whitespace then m'
    else if c = '"' then m'.emptySystem.switch .doctypeSystemIdentifierDoubleQuoted
    else if c = '\'' then m'.emptySystem.switch .doctypeSystemIdentifierSingleQuoted
    else if c = '>' then (m'.forceQuirks.switch .data).emitDoctype
    else m.forceQuirks.switch .bogusDoctype
  -- 13.2.5.65 DOCTYPE system identifier (double-quoted) state
  | .doctypeSystemIdentifierDoubleQuoted, [] => m.eofInDoctype
  | .doctypeSystemIdentifierDoubleQuoted, c :: rest =>
    let m' := { m with input := rest }
    if c = '"' then m'.switch .afterDoctypeSystemIdentifier
    else if c = null then m'.appendSystem replacement
    else if c = '>' then (m'.forceQuirks.switch .data).emitDoctype
    else m'.appendSystem c
  -- 13.2.5.66 DOCTYPE system identifier (single-quoted) state
  | .doctypeSystemIdentifierSingleQuoted, [] => m.eofInDoctype
  | .doctypeSystemIdentifierSingleQuoted, c :: rest =>
    let m' := { m with input := rest }
    if c = '\'' then m'.switch .afterDoctypeSystemIdentifier
    else if c = null then m'.appendSystem replacement
    else if c = '>' then (m'.forceQuirks.switch .data).emitDoctype
    else m'.appendSystem c
  -- 13.2.5.67 After DOCTYPE system identifier state
  | .afterDoctypeSystemIdentifier, [] => m.eofInDoctype
  | .afterDoctypeSystemIdentifier, c :: rest =>
    let m' := { m with input := rest }
    if c ∈ whitespace then m'
    else if c = '>' then (m'.switch .data).emitDoctype
    else m.switch .bogusDoctype
  -- 13.2.5.68 Bogus DOCTYPE state
  | .bogusDoctype, [] => m.emitDoctype.emitEof
  | .bogusDoctype, c :: rest =>
    let m' := { m with input := rest }
    if c = '>' then (m'.switch .data).emitDoctype else m'
  -- 13.2.5.69 CDATA section state
  | .cdataSection, [] => m.emitEof
  | .cdataSection, c :: rest =>
    let m' := { m with input := rest }
    if c = ']' then m'.switch .cdataSectionBracket else m'.emitChars [c]
  -- 13.2.5.70 CDATA section bracket state
  | .cdataSectionBracket, [] => (m.emitChars [']']).switch .cdataSection
  | .cdataSectionBracket, c :: rest =>
    if c = ']' then { m with input := rest }.switch .cdataSectionEnd
    else (m.emitChars [']']).switch .cdataSection
  -- 13.2.5.71 CDATA section end state
  | .cdataSectionEnd, [] => (m.emitChars [']', ']']).switch .cdataSection
  | .cdataSectionEnd, c :: rest =>
    if c = ']' then { m with input := rest }.emitChars [']']
    else if c = '>' then { m with input := rest }.switch .data
    else (m.emitChars [']', ']']).switch .cdataSection
  | .characterReference, _ => m

/-- the return states in which a reference is "consumed as part of an attribute" -/
def inAttribute (ret : State) : Bool :=
  decide (ret = .attributeValueDoubleQuoted ∨ ret = .attributeValueSingleQuoted ∨ ret = .attributeValueUnquoted)

/-- 13.2.5.72 and following: what the reference stands for is appended to the attribute's value or emitted, and the tokenizer
returns to where it was -/
def afterReference (m : Machine) (text rest : Str) : Machine :=
  if inAttribute m.ret then ({ m with input := rest }.appendAttrValue text).switch m.ret
  else ({ m with input := rest }.emitChars text).switch m.ret

/-- one step of the tokenizer; `names` is the table of 13.5 "Named character references" -/
inductive Step (names : List (Str × Str)) (p : Parser) : Machine → Machine → Prop
  | state {m : Machine} : m.stopped = false → m.state ≠ .characterReference → Step names p m (act p m)
  | reference {m : Machine} {text rest : Str} : m.stopped = false → m.state = .characterReference →
      Ref names (inAttribute m.ret) m.input text rest → Step names p m (afterReference m text rest)

/-- a tokenizer before its input, started in the state for `c` -/
def start (input : Str) (c : Content) : Machine :=
  { state := ofContent c, ret := .data, input, tag := ⟨false, [], false, []⟩, comment := [], doctype := ⟨none, false, none, none⟩,
    buffer := [], lastStart := [], chars := [], out := [], endTagWithAttributes := false, stopped := false }

/-- the machine `m` can be reached from the input -/
def Reaches (names : List (Str × Str)) (p : Parser) (input : Str) (c : Content) (m : Machine) : Prop :=
  Relation.ReflTransGen (Step names p) (start input c) m

end Verif.HtmlTok.Standard

namespace Verif.HtmlTok

/-- the words the standard matches "ASCII case-insensitively" -/
def words : List Str := ["DOCTYPE".toList, "PUBLIC".toList, "SYSTEM".toList]

/-- wherever upper-casing (Unicode's) gives one of these words, the text has it in ASCII letters; so no `PUBLıC` -/
def NoLookalikes (env : Env) (s : Str) : Prop :=
  ∀ w ∈ words, ∀ t, t <:+ s → (t.take w.length).flatMap env.up = w → Standard.startsWith w t

/-- the engine's tokenizer, on this input, hands the parser these tokens, the last being the end of the file -/
def Yields (env : Env) (p : Parser) (input : Str) (c : Content) (toks : List Token) : Prop :=
  ∃ n, ((Run.step env p)^[n] (.start input c)).got = toks ∧ toks.getLast? = some .eof

/-- the characters of names: no white space, no `/` or `>`, no NUL, no ASCII capital -/
def NameChar (c : Char) : Prop :=
  c ∉ ['\t', '\n', '\x0C', ' '] ∧ c ≠ '/' ∧ c ≠ '>' ∧ c ≠ Char.ofNat 0 ∧ ¬ ('A' ≤ c ∧ c ≤ 'Z')

/-- a tag's name: it starts with a small ASCII letter -/
def TagName (n : Str) : Prop := (∃ c, n.head? = some c ∧ 'a' ≤ c ∧ c ≤ 'z') ∧ ∀ c ∈ n, NameChar c

/-- a tag's attributes: no name twice, none empty -/
def AttrsOk (as : List (Str × Str)) : Prop := (as.map (·.1)).Nodup ∧ ∀ a ∈ as, a.1 ≠ [] ∧ ∀ c ∈ a.1, NameChar c

/-- what can be relied on in a token -/
def TokenOk : Token → Prop
  | .startTag n _ as => TagName n ∧ AttrsOk as
  | .endTag n => TagName n
  | .text s => s ≠ []
  | _ => True

/-- HTML standard 13.3, "Escaping a string" (`attr`: in an attribute's value) -/
def escapeChar (attr : Bool) (c : Char) : Str :=
  if c = '&' then "&amp;".toList
  else if c = Char.ofNat 0xA0 then "&nbsp;".toList
  else if c = '<' then "&lt;".toList
  else if c = '>' then "&gt;".toList
  else if attr = true ∧ c = '"' then "&quot;".toList
  else [c]

def escape (attr : Bool) (s : Str) : Str := s.flatMap (escapeChar attr)

def printAttr (a : Str × Str) : Str := [' '] ++ a.1 ++ ['=', '"'] ++ escape true a.2 ++ ['"']

/-- tokens written out as in 13.3 "Serializing HTML fragments" -/
def print : Token → Str
  | .text s => escape false s
  | .startTag n sc as => ['<'] ++ n ++ as.flatMap printAttr ++ (if sc then ['/', '>'] else ['>'])
  | .endTag n => ['<', '/'] ++ n ++ ['>']
  | .comment s => "<!--".toList ++ s ++ "-->".toList
  | .doctype n _ _ _ => "<!DOCTYPE ".toList ++ n.getD [] ++ ['>']
  | .eof => []

/-- what 13.1.6 asks of the text of a comment (and no NUL); that it has no `<!--` and does not end in `<!-` does not matter
here -/
def CommentText (s : Str) : Prop :=
  ¬ ['>'] <+: s ∧ ¬ "->".toList <+: s ∧ ¬ "-->".toList <:+: s ∧ ¬ "--!>".toList <:+: s ∧ Char.ofNat 0 ∉ s

/-- tokens that can be written out: names as in C92 with no `=` in attribute names, no NUL in values, and a DOCTYPE with nothing
but a name; any text -/
def Printable : Token → Prop
  | .text s => s ≠ []
  | .startTag n _ as => TagName n ∧ AttrsOk as ∧ ∀ a ∈ as, '=' ∉ a.1 ∧ Char.ofNat 0 ∉ a.2
  | .endTag n => TagName n
  | .comment s => CommentText s
  | .doctype n q p s => (∃ m, n = some m ∧ TagName m) ∧ q = false ∧ p = none ∧ s = none
  | .eof => False

/-- `s` holds no end tag for `n`: no `</n` (in any mixture of cases) followed by white space, `/` or `>` -/
def NoEndTag (n s : Str) : Prop :=
  ∀ a w d b, s = a ++ ['<', '/'] ++ w ++ d :: b → w.map Standard.lowercase = n → d ∉ Standard.whitespace ∧ d ≠ '/' ∧ d ≠ '>'

/-- NUL becomes U+FFFD -/
def noNul (s : Str) : Str := s.map fun c => if c = Char.ofNat 0 then Char.ofNat 0xFFFD else c

end Verif.HtmlTok
