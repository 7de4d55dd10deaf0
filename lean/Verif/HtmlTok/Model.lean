import Verif.CharRef.Model

/-!
# The HTML tokenizer

Models `crates/gosub_html5/src/tokenizer.rs` with `tokenizer/token.rs` and `tokenizer/state.rs`. Character references are those
of `Verif.CharRef.Model`.

Simplifications: the stream is the list of characters still to be read, as `ByteStream` delivers them (CR LF already one LF; the
ByteStream area proves that reading gives this list and that one step back undoes one read), closed and without lone
surrogates; locations and parse errors are left out (nothing reads them); `HashMap`s of attributes are lists in the order of
insertion; `is_self_closing` of end tags is left out (it is never set); the fields of the tokenizer are those the loop reads.
-/

namespace Verif.HtmlTok

open Verif.CharRef (St consumeCharacterReference)

/-- state.rs 3-214, `State` -/
inductive State
  | afterAttributeName | afterAttributeValueQuoted | afterDoctypeName | afterDoctypePublicIdentifier
  | afterDoctypePublicKeyword | afterDoctypeSystemIdentifier | afterDoctypeSystemKeyword | attributeName
  | attributeValueDoubleQuoted | attributeValueSingleQuoted | attributeValueUnquoted | beforeAttributeName
  | beforeAttributeValue | beforeDoctypeName | beforeDoctypePublicIdentifier | beforeDoctypeSystemIdentifier
  | betweenDoctypePublicAndSystemIdentifiers | bogusComment | bogusDoctype | cdataSection | cdataSectionBracket
  | cdataSectionEnd | characterReferenceInAttributeValue | characterReferenceInData | characterReferenceInRcData
  | comment | commentEnd | commentEndBang | commentEndDash | commentLessThanSign | commentLessThanSignBang
  | commentLessThanSignBangDash | commentLessThanSignBangDashDash | commentStart | commentStartDash | data
  | doctype | doctypeName | doctypePublicIdentifierDoubleQuoted | doctypePublicIdentifierSingleQuoted
  | doctypeSystemIdentifierDoubleQuoted | doctypeSystemIdentifierSingleQuoted | endTagOpen | markupDeclarationOpen
  | plaintext | rawtext | rawtextEndTagName | rawtextEndTagOpen | rawtextLessThanSign | rcdata | rcdataEndTagName
  | rcdataEndTagOpen | rcdataLessThanSign | scriptData | scriptDataDoubleEscaped | scriptDataDoubleEscapedDash
  | scriptDataDoubleEscapedDashDash | scriptDataDoubleEscapedLessThanSign | scriptDataDoubleEscapeEnd
  | scriptDataDoubleEscapeStart | scriptDataEndTagName | scriptDataEndTagOpen | scriptDataEscaped
  | scriptDataEscapedDash | scriptDataEscapedDashDash | scriptDataEscapedEndTagName | scriptDataEscapedEndTagOpen
  | scriptDataEscapedLessThanSign | scriptDataEscapeStart | scriptDataEscapeStartDash | scriptDataLessThanSign
  | selfClosingStart | tagName | tagOpen
  deriving DecidableEq, Repr

/-- token.rs 13-43, `Token` -/
inductive Token
  | doctype (name : Option Str) (quirks : Bool) (pub sys : Option Str)
  | startTag (name : Str) (selfClosing : Bool) (attrs : List (Str × Str))
  | endTag (name : Str)
  | comment (s : Str)
  | text (s : Str)
  | eof
  deriving DecidableEq, Repr

/-- tokenizer.rs 33-60, `Tokenizer`; `rest` is the stream -/
structure Tok where
  rest : Str
  state : State
  consumed : Str
  attrName : Str
  attrValue : Str
  attrs : List (Str × Str)
  cur : Option Token
  tmp : Str
  queue : List Token
  lastStart : Str
  deriving DecidableEq

/-- tokenizer.rs 113-134, `Tokenizer::new`, with the initial state -/
def Tok.new (input : Str) (state : State) : Tok :=
  { rest := input, state, consumed := [], attrName := [], attrValue := [], attrs := [], cur := none, tmp := [], queue := [],
    lastStart := [] }

/-- What the tokenizer takes from elsewhere: the table of named characters, and `char::to_uppercase` (it is only applied
beyond ASCII). -/
structure Env where
  names : List (Str × Str)
  upper : Char → Str

/-- `CHAR_TAB | CHAR_LF | CHAR_FF | CHAR_SPACE` (tokenizer.rs 24-29) -/
def isWs (c : Char) : Bool := c = '\t' || c = '\n' || c = '\x0C' || c = ' '

/-- `char::is_ascii_alphabetic` -/
def isAlpha (c : Char) : Bool := (65 ≤ c.toNat && c.toNat ≤ 90) || (97 ≤ c.toNat && c.toNat ≤ 122)

/-- `'A'..='Z'` -/
def isUpper (c : Char) : Bool := 65 ≤ c.toNat && c.toNat ≤ 90

/-- tokenizer.rs 104-108, `to_lowercase!`: `char::to_ascii_lowercase` -/
def toLower (c : Char) : Char := if isUpper c then Char.ofNat (c.toNat + 32) else c

/-- tokenizer.rs 30, `CHAR_REPLACEMENT` -/
def repl : Char := Char.ofNat 0xFFFD

/-- `char::to_uppercase` -/
def Env.up (env : Env) (c : Char) : Str :=
  if c.toNat < 128 then (if 97 ≤ c.toNat && c.toNat ≤ 122 then [Char.ofNat (c.toNat - 32)] else [c]) else env.upper c

/-- `Character::slice_to_string(self.stream.get_slice(n))`: past the end every character becomes NUL (byte_stream.rs 51-59,
86-88, 258-266) -/
def slice (n : Nat) (rest : Str) : Str := rest.take n ++ List.replicate (n - rest.length) (Char.ofNat 0)

/-- `….cow_to_uppercase() == kw` -/
def Env.ahead (env : Env) (kw : Str) (rest : Str) : Bool := (slice kw.length rest).flatMap env.up = kw

namespace Tok

/-- a character read, and the state changed -/
def adv (t : Tok) (r : Str) (s : State) : Tok := { t with rest := r, state := s }

/-- the state changed; used where the character read is put back with `stream_prev` (tokenizer.rs 2289-2295; at the end of the
stream nothing was read and nothing is put back) -/
def goto (t : Tok) (s : State) : Tok := { t with state := s }

/-- tokenizer.rs 2147-2150, `consume` -/
def consume (t : Tok) (s : Str) : Tok := { t with consumed := t.consumed ++ s }

/-- tokenizer.rs 2061-2065, `add_to_token_value` -/
def addValue (t : Tok) (s : Str) : Tok :=
  match t.cur with
  | some (.comment v) => { t with cur := some (.comment (v ++ s)) }
  | _ => t

/-- tokenizer.rs 2068-2072, `set_public_identifier` (always to the empty string) -/
def setPub (t : Tok) : Tok :=
  match t.cur with
  | some (.doctype n q _ s) => { t with cur := some (.doctype n q (some []) s) }
  | _ => t

/-- tokenizer.rs 2075-2083, `add_public_identifier` -/
def addPub (t : Tok) (c : Char) : Tok :=
  match t.cur with
  | some (.doctype n q (some p) s) => { t with cur := some (.doctype n q (some (p ++ [c])) s) }
  | _ => t

/-- tokenizer.rs 2086-2090, `set_system_identifier` -/
def setSys (t : Tok) : Tok :=
  match t.cur with
  | some (.doctype n q p _) => { t with cur := some (.doctype n q p (some [])) }
  | _ => t

/-- tokenizer.rs 2093-2101, `add_system_identifier` -/
def addSys (t : Tok) (c : Char) : Tok :=
  match t.cur with
  | some (.doctype n q p (some s)) => { t with cur := some (.doctype n q p (some (s ++ [c]))) }
  | _ => t

/-- tokenizer.rs 2104-2118, `add_to_token_name` -/
def addName (t : Tok) (c : Char) : Tok :=
  match t.cur with
  | some (.startTag n sc a) => { t with cur := some (.startTag (n ++ [c]) sc a) }
  | some (.endTag n) => { t with cur := some (.endTag (n ++ [c])) }
  | some (.doctype (some n) q p s) => { t with cur := some (.doctype (some (n ++ [c])) q p s) }
  | some (.doctype none q p s) => { t with cur := some (.doctype (some [c]) q p s) }
  | _ => t

/-- tokenizer.rs 2130-2133: the name of the start tag emitted -/
def noteStart (last : Str) : Token → Str
  | .startTag n _ _ => n
  | _ => last

/-- tokenizer.rs 2128-2144, `emit_token` -/
def emit (t : Tok) (k : Token) : Tok :=
  { t with
    lastStart := noteStart t.lastStart k
    queue := t.queue ++ (if t.consumed = [] then [] else [.text t.consumed]) ++ [k]
    consumed := [] }

/-- tokenizer.rs 2121-2125, `emit_current_token` -/
def emitCur (t : Tok) : Tok :=
  match t.cur with
  | some k => ({ t with cur := none }).emit k
  | none => t

/-- tokenizer.rs 2153-2159, `transition_to` -/
def transitionTo (t : Tok) (s : State) : Tok :=
  { t with consumed := t.consumed ++ ['<', '/'] ++ t.tmp, tmp := [], state := s }

/-- tokenizer.rs 2192-2207, `set_is_closing_in_current_token(true)` -/
def setSelfClosing (t : Tok) : Tok :=
  match t.cur with
  | some (.startTag n _ a) => { t with cur := some (.startTag n true a) }
  | _ => t

/-- tokenizer.rs 2210-2214, `set_quirks_mode(true)` -/
def setQuirks (t : Tok) : Tok :=
  match t.cur with
  | some (.doctype n _ p s) => { t with cur := some (.doctype n true p s) }
  | _ => t

/-- tokenizer.rs 2248-2258, `store_and_clear_current_attribute` -/
def storeAttr (t : Tok) : Tok :=
  { t with
    attrs := if t.attrName ≠ [] ∧ t.attrName ∉ t.attrs.map (·.1) then t.attrs ++ [(t.attrName, t.attrValue)] else t.attrs
    attrName := []
    attrValue := [] }

/-- tokenizer.rs 2261-2281, `add_stored_attributes_to_current_token`. (The attributes of a token are empty before, so `extend`
sets them.) -/
def addStored (t : Tok) : Tok :=
  if t.attrs = [] then t
  else
    match t.cur with
    | some (.startTag n sc a) => { t with cur := some (.startTag n sc (a ++ t.attrs)), attrs := [] }
    | _ => t

/-- tokenizer.rs 1036-1039 and others: the end of a tag that may have attributes -/
def finishTag (t : Tok) : Tok := t.storeAttr.addStored.emitCur

/-- tokenizer.rs 400-403 and others: the name of the end tag being read -/
def endName (t : Tok) : Str :=
  match t.cur with
  | some (.endTag n) => n
  | _ => []

/-- `self.is_appropriate_end_token(current_end_tag_name)`, tokenizer.rs 2170-2172 -/
def appropriate (t : Tok) : Bool := t.lastStart = t.endName

/-- tokenizer.rs 196-199, 216-220, 1086-1088, 1107-1109, 1130-1132: `consume_character_reference`. (It also empties the temporary
buffer.) -/
def charRef (env : Env) (asAttribute : Bool) (t : Tok) : Tok :=
  let s := consumeCharacterReference env.names asAttribute ⟨t.rest, t.consumed, t.attrValue⟩
  { t with rest := s.rest, consumed := s.consumed, attrValue := s.attrValue, tmp := [] }

/-- tokenizer.rs 372-391, 459-478, 752-772: `RCDATAEndTagOpen`, `RAWTEXTEndTagOpen`, `ScriptDataEscapedEndTagOpen` -/
def endTagOpenIn (t : Tok) (name back : State) : Tok :=
  match t.rest with
  | [] => (t.consume ['<', '/']).goto back
  | c :: _ => if isAlpha c then { t with cur := some (.endTag []), state := name } else (t.consume ['<', '/']).goto back

/-- tokenizer.rs 392-447, 479-534, 576-631, 773-828: `RCDATAEndTagName`, `RAWTEXTEndTagName`, `ScriptDataEndTagName`,
`ScriptDataEscapedEndTagName` -/
def endTagNameIn (t : Tok) (back : State) : Tok :=
  match t.rest with
  | [] => t.transitionTo back
  | c :: r =>
    if isWs c then (if t.appropriate then t.adv r .beforeAttributeName else t.transitionTo back)
    else if c = '/' then (if t.appropriate then t.adv r .selfClosingStart else t.transitionTo back)
    else if c = '>' then
      (if t.appropriate then { (t.adv r .data).emitCur with lastStart := [] } else t.transitionTo back)
    else if isAlpha c then { (t.addName (toLower c)) with rest := r, tmp := t.tmp ++ [c] }
    else t.transitionTo back

/-- tokenizer.rs 1223-1270, `MarkupDeclarationOpen` -/
def markupDeclaration (env : Env) (foreign : Bool) (t : Tok) : Tok :=
  if slice 2 t.rest = ['-', '-'] then { t with cur := some (.comment []), rest := t.rest.drop 2, state := .commentStart }
  else if env.ahead "DOCTYPE".toList t.rest then t.adv (t.rest.drop 7) .doctype
  else if slice 7 t.rest = "[CDATA[".toList then
    (if foreign then t.adv (t.rest.drop 7) .cdataSection
     else { t with cur := some (.comment "[CDATA[".toList), rest := t.rest.drop 7, state := .bogusComment })
  else { t with cur := some (.comment []), state := .bogusComment }

/-- tokenizer.rs 1606-1625, the last case of `AfterDOCTYPEName`. (The code steps back twice before `BogusDOCTYPE`; the second
step puts back the white space before, which that state skips.) -/
def afterDoctypeNameKeyword (env : Env) (t : Tok) : Tok :=
  if env.ahead "PUBLIC".toList t.rest then t.adv (t.rest.drop 6) .afterDoctypePublicKeyword
  else if env.ahead "SYSTEM".toList t.rest then t.adv (t.rest.drop 6) .afterDoctypeSystemKeyword
  else t.setQuirks.goto .bogusDoctype

/-- the end of the stream inside a doctype (tokenizer.rs 1579-1584 and others), and a doctype cut short by `>` -/
def brokenDoctype (t : Tok) : Tok := { t.setQuirks.emitCur with state := .data }

/-- tokenizer.rs 1475-1482, 1525-1533, 1539-1547: a doctype without a name -/
def namelessDoctype (t : Tok) : Tok := { t.emit (.doctype none true none none) with state := .data }

/-- a doctype begun by `c` (tokenizer.rs 1499-1508, 1512-1521, 1550-1559) -/
def startDoctype (t : Tok) (r : Str) (c : Char) : Tok :=
  ({ t with cur := some (.doctype none false none none) }.addName c).adv r .doctypeName

/-- tokenizer.rs 1701-1748 and 1895-1942: the inside of a quoted identifier of a doctype -/
def doctypeId (t : Tok) (quote : Char) (after : State) (add : Tok → Char → Tok) : Tok :=
  match t.rest with
  | [] => t.brokenDoctype
  | c :: r =>
    if c = quote then t.adv r after
    else if c = Char.ofNat 0 then { add t repl with rest := r }
    else if c = '>' then { t with rest := r }.brokenDoctype
    else { add t c with rest := r }

end Tok

open Tok in
/-- tokenizer.rs 167-2033, one round of the loop of `consume_stream` (the queue is empty). `foreign` is
`parser_data.adjusted_node_namespace != HTML_NAMESPACE`. -/
def step (env : Env) (foreign : Bool) (t : Tok) : Tok :=
  match t.state with
  | .data => -- 175-195
    match t.rest with
    | [] => t.emit .eof
    | c :: r =>
      if c = '&' then t.adv r .characterReferenceInData
      else if c = '<' then t.adv r .tagOpen
      else { t.consume [c] with rest := r }
  | .characterReferenceInData => (t.charRef env false).goto .data -- 196-199
  | .rcdata => -- 200-215
    match t.rest with
    | [] => t.emit .eof
    | c :: r =>
      if c = '&' then t.adv r .characterReferenceInRcData
      else if c = '<' then t.adv r .rcdataLessThanSign
      else if c = Char.ofNat 0 then { t.consume [repl] with rest := r }
      else { t.consume [c] with rest := r }
  | .characterReferenceInRcData => (t.charRef env false).goto .rcdata -- 216-220
  | .rawtext => -- 221-235
    match t.rest with
    | [] => t.emit .eof
    | c :: r =>
      if c = '<' then t.adv r .rawtextLessThanSign
      else if c = Char.ofNat 0 then { t.consume [repl] with rest := r }
      else { t.consume [c] with rest := r }
  | .scriptData => -- 236-250
    match t.rest with
    | [] => t.emit .eof
    | c :: r =>
      if c = '<' then t.adv r .scriptDataLessThanSign
      else if c = Char.ofNat 0 then { t.consume [repl] with rest := r }
      else { t.consume [c] with rest := r }
  | .plaintext => -- 251-264
    match t.rest with
    | [] => t.emit .eof
    | c :: r =>
      if c = Char.ofNat 0 then { t.consume [repl] with rest := r } else { t.consume [c] with rest := r }
  | .tagOpen => -- 265-302
    match t.rest with
    | [] => (t.consume ['<']).goto .data
    | c :: r =>
      if c = '!' then t.adv r .markupDeclarationOpen
      else if c = '/' then t.adv r .endTagOpen
      else if isAlpha c then { t with cur := some (.startTag [] false []), state := .tagName }
      else if c = '?' then { t with cur := some (.comment []), state := .bogusComment }
      else (t.consume ['<']).goto .data
  | .endTagOpen => -- 303-336
    match t.rest with
    | [] => (t.consume ['<', '/']).goto .data
    | c :: r =>
      if isAlpha c then { t with cur := some (.endTag []), state := .tagName }
      else if c = '>' then t.adv r .data
      else { t with cur := some (.comment []), state := .bogusComment }
  | .tagName => -- 337-360
    match t.rest with
    | [] => t.goto .data
    | c :: r =>
      if isWs c then t.adv r .beforeAttributeName
      else if c = '/' then t.adv r .selfClosingStart
      else if c = '>' then (t.adv r .data).emitCur
      else if isUpper c then { t.addName (toLower c) with rest := r }
      else if c = Char.ofNat 0 then { t.addName repl with rest := r }
      else { t.addName c with rest := r }
  | .rcdataLessThanSign => -- 361-371
    match t.rest with
    | [] => (t.consume ['<']).goto .rcdata
    | c :: r => if c = '/' then { t with tmp := [], rest := r, state := .rcdataEndTagOpen } else (t.consume ['<']).goto .rcdata
  | .rcdataEndTagOpen => t.endTagOpenIn .rcdataEndTagName .rcdata -- 372-391
  | .rcdataEndTagName => t.endTagNameIn .rcdata -- 392-447
  | .rawtextLessThanSign => -- 448-458
    match t.rest with
    | [] => (t.consume ['<']).goto .rawtext
    | c :: r => if c = '/' then { t with tmp := [], rest := r, state := .rawtextEndTagOpen } else (t.consume ['<']).goto .rawtext
  | .rawtextEndTagOpen => t.endTagOpenIn .rawtextEndTagName .rawtext -- 459-478
  | .rawtextEndTagName => t.endTagNameIn .rawtext -- 479-534
  | .scriptDataLessThanSign => -- 535-553
    match t.rest with
    | [] => (t.consume ['<']).goto .scriptData
    | c :: r =>
      if c = '/' then { t with tmp := [], rest := r, state := .scriptDataEndTagOpen }
      else if c = '!' then (t.consume ['<', '!']).adv r .scriptDataEscapeStart
      else (t.consume ['<']).goto .scriptData
  | .scriptDataEndTagOpen => -- 554-575
    match t.rest with
    | [] => (t.consume ['<', '/']).goto .scriptData
    | c :: r =>
      if isAlpha c then
        { t with cur := some (.endTag [toLower c]), tmp := t.tmp ++ [c], rest := r, state := .scriptDataEndTagName }
      else (t.consume ['<', '/']).goto .scriptData
  | .scriptDataEndTagName => t.endTagNameIn .scriptData -- 576-631
  | .scriptDataEscapeStart => -- 632-641
    match t.rest with
    | [] => t.goto .scriptData
    | c :: r => if c = '-' then (t.consume ['-']).adv r .scriptDataEscapeStartDash else t.goto .scriptData
  | .scriptDataEscapeStartDash => -- 642-651
    match t.rest with
    | [] => t.goto .scriptData
    | c :: r => if c = '-' then (t.consume ['-']).adv r .scriptDataEscapedDashDash else t.goto .scriptData
  | .scriptDataEscaped => -- 652-675
    match t.rest with
    | [] => t.goto .data
    | c :: r =>
      if c = '-' then (t.consume ['-']).adv r .scriptDataEscapedDash
      else if c = '<' then t.adv r .scriptDataEscapedLessThanSign
      else if c = Char.ofNat 0 then { t.consume [repl] with rest := r }
      else { t.consume [c] with rest := r }
  | .scriptDataEscapedDash => -- 676-701
    match t.rest with
    | [] => t.goto .data
    | c :: r =>
      if c = '-' then (t.consume ['-']).adv r .scriptDataEscapedDashDash
      else if c = '<' then t.adv r .scriptDataEscapedLessThanSign
      else if c = Char.ofNat 0 then (t.consume [repl]).adv r .scriptDataEscaped
      else (t.consume [c]).adv r .scriptDataEscaped
  | .scriptDataEscapedDashDash => -- 702-730
    match t.rest with
    | [] => t.goto .data
    | c :: r =>
      if c = '-' then { t.consume ['-'] with rest := r }
      else if c = '<' then t.adv r .scriptDataEscapedLessThanSign
      else if c = '>' then (t.consume ['>']).adv r .scriptData
      else if c = Char.ofNat 0 then (t.consume [repl]).adv r .scriptDataEscaped
      else (t.consume [c]).adv r .scriptDataEscaped
  | .scriptDataEscapedLessThanSign => -- 731-751
    match t.rest with
    | [] => (t.consume ['<']).goto .scriptDataEscaped
    | c :: r =>
      if c = '/' then { t with tmp := [], rest := r, state := .scriptDataEscapedEndTagOpen }
      else if isAlpha c then { t.consume ['<'] with tmp := [], state := .scriptDataDoubleEscapeStart }
      else (t.consume ['<']).goto .scriptDataEscaped
  | .scriptDataEscapedEndTagOpen => t.endTagOpenIn .scriptDataEscapedEndTagName .scriptDataEscaped -- 752-772
  | .scriptDataEscapedEndTagName => t.endTagNameIn .scriptDataEscaped -- 773-828
  | .scriptDataDoubleEscapeStart => -- 829-849
    match t.rest with
    | [] => t.goto .scriptDataEscaped
    | c :: r =>
      if isWs c || c = '/' || c = '>' then
        (t.consume [c]).adv r (if t.tmp = "script".toList then .scriptDataDoubleEscaped else .scriptDataEscaped)
      else if isAlpha c then { t.consume [c] with tmp := t.tmp ++ [toLower c], rest := r }
      else t.goto .scriptDataEscaped
  | .scriptDataDoubleEscaped => -- 850-872
    match t.rest with
    | [] => t.goto .data
    | c :: r =>
      if c = '-' then (t.consume ['-']).adv r .scriptDataDoubleEscapedDash
      else if c = '<' then (t.consume ['<']).adv r .scriptDataDoubleEscapedLessThanSign
      else if c = Char.ofNat 0 then { t.consume [repl] with rest := r }
      else { t.consume [c] with rest := r }
  | .scriptDataDoubleEscapedDash => -- 873-899
    match t.rest with
    | [] => t.goto .data
    | c :: r =>
      if c = '-' then (t.consume ['-']).adv r .scriptDataDoubleEscapedDashDash
      else if c = '<' then (t.consume ['<']).adv r .scriptDataDoubleEscapedLessThanSign
      else if c = Char.ofNat 0 then (t.consume [repl]).adv r .scriptDataDoubleEscaped
      else (t.consume [c]).adv r .scriptDataDoubleEscaped
  | .scriptDataDoubleEscapedDashDash => -- 900-927
    match t.rest with
    | [] => t.goto .data
    | c :: r =>
      if c = '-' then { t.consume ['-'] with rest := r }
      else if c = '<' then (t.consume ['<']).adv r .scriptDataDoubleEscapedLessThanSign
      else if c = '>' then (t.consume ['>']).adv r .scriptData
      else if c = Char.ofNat 0 then (t.consume [repl]).adv r .scriptDataDoubleEscaped
      else (t.consume [c]).adv r .scriptDataDoubleEscaped
  | .scriptDataDoubleEscapedLessThanSign => -- 928-938
    match t.rest with
    | [] => t.goto .scriptDataDoubleEscaped
    | c :: r =>
      if c = '/' then { t.consume ['/'] with tmp := [], rest := r, state := .scriptDataDoubleEscapeEnd }
      else t.goto .scriptDataDoubleEscaped
  | .scriptDataDoubleEscapeEnd => -- 939-959
    match t.rest with
    | [] => t.goto .scriptDataDoubleEscaped
    | c :: r =>
      if isWs c || c = '/' || c = '>' then
        (t.consume [c]).adv r (if t.tmp = "script".toList then .scriptDataEscaped else .scriptDataDoubleEscaped)
      else if isAlpha c then { t.consume [c] with tmp := t.tmp ++ [toLower c], rest := r }
      else t.goto .scriptDataDoubleEscaped
  | .beforeAttributeName => -- 960-987
    match t.rest with
    | [] => t.goto .afterAttributeName
    | c :: r =>
      if isWs c then { t with rest := r }
      else if c = '/' || c = '>' then t.goto .afterAttributeName
      else if c = '=' then { t.storeAttr with attrName := [c], rest := r, state := .attributeName }
      else t.storeAttr.goto .attributeName
  | .attributeName => -- 988-1025
    match t.rest with
    | [] => t.goto .afterAttributeName
    | c :: r =>
      if isWs c || c = '/' || c = '>' then t.goto .afterAttributeName
      else if c = '=' then t.adv r .beforeAttributeValue
      else if isUpper c then { t with attrName := t.attrName ++ [toLower c], rest := r }
      else if c = Char.ofNat 0 then { t with attrName := t.attrName ++ [repl], rest := r }
      else { t with attrName := t.attrName ++ [c], rest := r }
  | .afterAttributeName => -- 1026-1051
    match t.rest with
    | [] => t.goto .data
    | c :: r =>
      if isWs c then { t with rest := r }
      else if c = '/' then t.adv r .selfClosingStart
      else if c = '=' then t.adv r .beforeAttributeValue
      else if c = '>' then (t.adv r .data).finishTag
      else t.storeAttr.goto .attributeName
  | .beforeAttributeValue => -- 1052-1080
    match t.rest with
    | [] => t.goto .data
    | c :: r =>
      if isWs c then { t with rest := r }
      else if c = '"' then t.adv r .attributeValueDoubleQuoted
      else if c = '\'' then t.adv r .attributeValueSingleQuoted
      else if c = '>' then (t.adv r .data).finishTag
      else t.goto .attributeValueUnquoted
  | .attributeValueDoubleQuoted => -- 1081-1101
    match t.rest with
    | [] => t.goto .data
    | c :: r =>
      if c = '"' then t.adv r .afterAttributeValueQuoted
      else if c = '&' then { t with rest := r }.charRef env true
      else if c = Char.ofNat 0 then { t with attrValue := t.attrValue ++ [repl], rest := r }
      else { t with attrValue := t.attrValue ++ [c], rest := r }
  | .attributeValueSingleQuoted => -- 1102-1122
    match t.rest with
    | [] => t.goto .data
    | c :: r =>
      if c = '\'' then t.adv r .afterAttributeValueQuoted
      else if c = '&' then { t with rest := r }.charRef env true
      else if c = Char.ofNat 0 then { t with attrValue := t.attrValue ++ [repl], rest := r }
      else { t with attrValue := t.attrValue ++ [c], rest := r }
  | .attributeValueUnquoted => -- 1123-1155
    match t.rest with
    | [] => t.goto .data
    | c :: r =>
      if isWs c then t.adv r .beforeAttributeName
      else if c = '&' then { t with rest := r }.charRef env true
      else if c = '>' then (t.adv r .data).finishTag
      else if c = Char.ofNat 0 then { t with attrValue := t.attrValue ++ [repl], rest := r }
      else { t with attrValue := t.attrValue ++ [c], rest := r }
  | .afterAttributeValueQuoted => -- 1157-1181
    match t.rest with
    | [] => t.goto .data
    | c :: r =>
      if isWs c then t.adv r .beforeAttributeName
      else if c = '/' then t.adv r .selfClosingStart
      else if c = '>' then (t.adv r .data).finishTag
      else t.goto .beforeAttributeName
  | .selfClosingStart => -- 1182-1205
    match t.rest with
    | [] => t.goto .data
    | c :: r =>
      if c = '>' then (t.setSelfClosing.adv r .data).finishTag
      else t.goto .beforeAttributeName
  | .bogusComment => -- 1206-1222
    match t.rest with
    | [] => { t.emitCur with state := .data }
    | c :: r =>
      if c = '>' then (t.adv r .data).emitCur
      else if c = Char.ofNat 0 then { t.addValue [repl] with rest := r }
      else { t.addValue [c] with rest := r }
  | .markupDeclarationOpen => t.markupDeclaration env foreign -- 1223-1270
  | .commentStart => -- 1271-1288
    match t.rest with
    | [] => t.goto .comment
    | c :: r =>
      if c = '-' then t.adv r .commentStartDash
      else if c = '>' then (t.adv r .data).emitCur
      else t.goto .comment
  | .commentStartDash => -- 1289-1312
    match t.rest with
    | [] => { t.emitCur with state := .data }
    | c :: r =>
      if c = '-' then t.adv r .commentEnd
      else if c = '>' then (t.adv r .data).emitCur
      else (t.addValue ['-']).goto .comment
  | .comment => -- 1313-1335
    match t.rest with
    | [] => { t.emitCur with state := .data }
    | c :: r =>
      if c = '<' then (t.addValue [c]).adv r .commentLessThanSign
      else if c = '-' then t.adv r .commentEndDash
      else if c = Char.ofNat 0 then { t.addValue [repl] with rest := r }
      else { t.addValue [c] with rest := r }
  | .commentLessThanSign => -- 1336-1351
    match t.rest with
    | [] => t.goto .comment
    | c :: r =>
      if c = '!' then (t.addValue [c]).adv r .commentLessThanSignBang
      else if c = '<' then { t.addValue [c] with rest := r }
      else t.goto .comment
  | .commentLessThanSignBang => -- 1352-1360
    match t.rest with
    | [] => t.goto .comment
    | c :: r => if c = '-' then t.adv r .commentLessThanSignBangDash else t.goto .comment
  | .commentLessThanSignBangDash => -- 1361-1369
    match t.rest with
    | [] => t.goto .commentEndDash
    | c :: r => if c = '-' then t.adv r .commentLessThanSignBangDashDash else t.goto .commentEndDash
  | .commentLessThanSignBangDashDash => t.goto .commentEnd -- 1370-1387: every case puts the character back
  | .commentEndDash => -- 1388-1406
    match t.rest with
    | [] => { t.emitCur with state := .data }
    | c :: r => if c = '-' then t.adv r .commentEnd else (t.addValue ['-']).goto .comment
  | .commentEnd => -- 1407-1429
    match t.rest with
    | [] => { t.emitCur with state := .data }
    | c :: r =>
      if c = '>' then (t.adv r .data).emitCur
      else if c = '!' then t.adv r .commentEndBang
      else if c = '-' then { t.addValue ['-'] with rest := r }
      else (t.addValue ['-', '-']).goto .comment
  | .commentEndBang => -- 1430-1459
    match t.rest with
    | [] => { t.emitCur with state := .data }
    | c :: r =>
      if c = '-' then (t.addValue ['-', '-', '!']).adv r .commentEndDash
      else if c = '>' then (t.adv r .data).emitCur
      else (t.addValue ['-', '-', '!']).goto .comment
  | .doctype => -- 1460-1490
    match t.rest with
    | [] => t.namelessDoctype
    | c :: r => if isWs c then t.adv r .beforeDoctypeName else t.goto .beforeDoctypeName
  | .beforeDoctypeName => -- 1491-1562
    match t.rest with
    | [] => t.namelessDoctype
    | c :: r =>
      if isWs c then { t with rest := r }
      else if isUpper c then t.startDoctype r (toLower c)
      else if c = Char.ofNat 0 then t.startDoctype r repl
      else if c = '>' then { t with rest := r }.namelessDoctype
      else t.startDoctype r c
  | .doctypeName => -- 1563-1587
    match t.rest with
    | [] => t.brokenDoctype
    | c :: r =>
      if isWs c then t.adv r .afterDoctypeName
      else if c = '>' then (t.adv r .data).emitCur
      else if isUpper c then { t.addName (toLower c) with rest := r }
      else if c = Char.ofNat 0 then { t.addName repl with rest := r }
      else { t.addName c with rest := r }
  | .afterDoctypeName => -- 1588-1628
    match t.rest with
    | [] => t.brokenDoctype
    | c :: r =>
      if isWs c then { t with rest := r }
      else if c = '>' then (t.adv r .data).emitCur
      else t.afterDoctypeNameKeyword env
  | .afterDoctypePublicKeyword => -- 1629-1665
    match t.rest with
    | [] => t.brokenDoctype
    | c :: r =>
      if isWs c then t.adv r .beforeDoctypePublicIdentifier
      else if c = '"' then t.setPub.adv r .doctypePublicIdentifierDoubleQuoted
      else if c = '\'' then t.setPub.adv r .doctypePublicIdentifierSingleQuoted
      else if c = '>' then { t with rest := r }.brokenDoctype
      else t.setQuirks.goto .bogusDoctype
  | .beforeDoctypePublicIdentifier => -- 1666-1700
    match t.rest with
    | [] => t.brokenDoctype
    | c :: r =>
      if isWs c then { t with rest := r }
      else if c = '"' then t.setPub.adv r .doctypePublicIdentifierDoubleQuoted
      else if c = '\'' then t.setPub.adv r .doctypePublicIdentifierSingleQuoted
      else if c = '>' then { t with rest := r }.brokenDoctype
      else t.setQuirks.goto .bogusDoctype
  | .doctypePublicIdentifierDoubleQuoted => t.doctypeId '"' .afterDoctypePublicIdentifier addPub -- 1701-1724
  | .doctypePublicIdentifierSingleQuoted => t.doctypeId '\'' .afterDoctypePublicIdentifier addPub -- 1725-1748
  | .afterDoctypePublicIdentifier => -- 1749-1789
    match t.rest with
    | [] => t.brokenDoctype
    | c :: r =>
      if isWs c then t.adv r .betweenDoctypePublicAndSystemIdentifiers
      else if c = '>' then (t.adv r .data).emitCur
      else if c = '"' then t.setSys.adv r .doctypeSystemIdentifierDoubleQuoted
      else if c = '\'' then t.setSys.adv r .doctypeSystemIdentifierSingleQuoted
      else t.setQuirks.goto .bogusDoctype
  | .betweenDoctypePublicAndSystemIdentifiers => -- 1790-1822
    match t.rest with
    | [] => t.brokenDoctype
    | c :: r =>
      if isWs c then { t with rest := r }
      else if c = '>' then (t.adv r .data).emitCur
      else if c = '"' then t.setSys.adv r .doctypeSystemIdentifierDoubleQuoted
      else if c = '\'' then t.setSys.adv r .doctypeSystemIdentifierSingleQuoted
      else t.setQuirks.goto .bogusDoctype
  | .afterDoctypeSystemKeyword => -- 1823-1859
    match t.rest with
    | [] => t.brokenDoctype
    | c :: r =>
      if isWs c then t.adv r .beforeDoctypeSystemIdentifier
      else if c = '"' then t.setSys.adv r .doctypeSystemIdentifierDoubleQuoted
      else if c = '\'' then t.setSys.adv r .doctypeSystemIdentifierSingleQuoted
      else if c = '>' then { t with rest := r }.brokenDoctype
      else t.setQuirks.goto .bogusDoctype
  | .beforeDoctypeSystemIdentifier => -- 1860-1894
    match t.rest with
    | [] => t.brokenDoctype
    | c :: r =>
      if isWs c then { t with rest := r }
      else if c = '"' then t.setSys.adv r .doctypeSystemIdentifierDoubleQuoted
      else if c = '\'' then t.setSys.adv r .doctypeSystemIdentifierSingleQuoted
      else if c = '>' then { t with rest := r }.brokenDoctype
      else t.setQuirks.goto .bogusDoctype
  | .doctypeSystemIdentifierDoubleQuoted => t.doctypeId '"' .afterDoctypeSystemIdentifier addSys -- 1895-1918
  | .doctypeSystemIdentifierSingleQuoted => t.doctypeId '\'' .afterDoctypeSystemIdentifier addSys -- 1919-1942
  | .afterDoctypeSystemIdentifier => -- 1943-1966
    match t.rest with
    | [] => t.brokenDoctype
    | c :: r =>
      if isWs c then { t with rest := r }
      else if c = '>' then (t.adv r .data).emitCur
      else t.goto .bogusDoctype
  | .bogusDoctype => -- 1967-1980
    match t.rest with
    | [] => { t.emitCur with state := .data }
    | c :: r => if c = '>' then (t.adv r .data).emitCur else { t with rest := r }
  | .cdataSection => -- 1981-1994
    match t.rest with
    | [] => t.goto .data
    | c :: r => if c = ']' then t.adv r .cdataSectionBracket else { t.consume [c] with rest := r }
  | .cdataSectionBracket => -- 1995-2004
    match t.rest with
    | [] => (t.consume [']']).goto .cdataSection
    | c :: r => if c = ']' then t.adv r .cdataSectionEnd else (t.consume [']']).goto .cdataSection
  | .cdataSectionEnd => -- 2005-2022
    match t.rest with
    | [] => (t.consume [']', ']']).goto .cdataSection
    | c :: r =>
      if c = '>' then t.adv r .data
      else if c = ']' then { t.consume [']'] with rest := r }
      else (t.consume [']', ']', c]).adv r .cdataSection
  | .characterReferenceInAttributeValue => t.emit .eof -- 2023-2030: an error, which the parser takes as the end (parser.rs 3848-3853)

/-- The states the parser puts the tokenizer into: `Data` (tokenizer.rs 121), `RCDATA`, `RAWTEXT`, `ScriptData`, `PLAINTEXT`
(parser.rs 2478, 2839, 3075, 3729, 3739, and 3936-3957 for fragments). -/
inductive Content
  | data | rcdata | rawtext | script | plaintext
  deriving DecidableEq, Repr

def Content.state : Content → State
  | .data => .data
  | .rcdata => .rcdata
  | .rawtext => .rawtext
  | .script => .scriptData
  | .plaintext => .plaintext

/-- The parser as the tokenizer sees it: from the tokens it has got so far, the state it puts the tokenizer into after a start
tag (if any), and whether the adjusted current node is outside the HTML namespace (parser.rs 3820-3842, asked for with every
token). -/
structure Parser where
  switch : List Token → Option Content
  foreign : List Token → Bool

/-- A tokenizer and the tokens it has returned. -/
structure Run where
  tok : Tok
  got : List Token
  deriving DecidableEq

def Run.start (input : Str) (c : Content) : Run := { tok := .new input c.state, got := [] }

/-- the parser stops at the end-of-file token -/
def Run.done (r : Run) : Bool := r.got.getLast? = some .eof

/-- the state after the parser has handled the token -/
def afterToken (p : Parser) (got : List Token) (s : State) : Token → State
  | .startTag _ _ _ => (p.switch got).elim s Content.state
  | _ => s

/-- parser.rs 455-486 (the loop of `do_parse`), tokenizer.rs 143-153 (`next_token`) and 167-172: the next token of the queue is
handed out and the parser handles it; with an empty queue the tokenizer's loop goes round once. (The parser may put back parts
of a text token it has split; it gets those before the tokenizer goes on, so they are left out.) -/
def Run.step (env : Env) (p : Parser) (r : Run) : Run :=
  if r.done then r
  else
    match r.tok.queue with
    | k :: q =>
      { tok := { r.tok with queue := q, state := afterToken p (r.got ++ [k]) r.tok.state k }, got := r.got ++ [k] }
    | [] => { r with tok := HtmlTok.step env (p.foreign r.got) r.tok }

end Verif.HtmlTok
