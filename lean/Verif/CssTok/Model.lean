import Verif.Util

/-!
# The CSS tokenizer

Models `crates/gosub_css3/src/tokenizer.rs` with `unicode.rs`.

Simplifications: the stream is the list of characters still to be read, closed and without lone surrogates; `read` and
`look_ahead` see its characters one by one, `read_and_next` takes CR LF as one LF (byte_stream.rs 185-217; the configuration is
the default one, 91-109). Locations are left out. Number tokens carry the text that is given to `str::parse::<f32>` (681)
instead of its value. The character kept in a whitespace token is left out. A loop takes a number of rounds; `none` means that it
has not ended by then.
-/

namespace Verif.CssTok

/-- tokenizer.rs 13-72, `TokenType`. `Comment` is never produced. -/
inductive Token
  | atKeyword (s : Str)
  | ident (s : Str)
  | function (s : Str)
  | unicodeRange (s : Str)
  | url (s : Str)
  | badUrl (s : Str)
  | dimension (value unit : Str)
  | percentage (value : Str)
  | number (value : Str)
  | quotedString (s : Str)
  | badString (s : Str)
  | whitespace
  | hash (s : Str)
  | delim (c : Char)
  | lCurly | rCurly | lParen | rParen | lBracket | rBracket | comma | colon | semicolon | cdo | cdc | eof
  deriving DecidableEq

/-- What is taken from the Unicode tables of the standard library: `char::is_whitespace` and `char::is_numeric`, beyond ASCII. -/
structure Env where
  ws : Char → Bool
  num : Char → Bool

/-- `char::is_whitespace` -/
def Env.isWs (env : Env) (c : Char) : Bool :=
  if c.toNat < 128 then c = ' ' || (9 ≤ c.toNat && c.toNat ≤ 13) else env.ws c

/-- `char::is_numeric` -/
def Env.isNum (env : Env) (c : Char) : Bool := if c.toNat < 128 then 48 ≤ c.toNat && c.toNat ≤ 57 else env.num c

/-- `char::is_ascii_hexdigit` -/
def isHex (c : Char) : Bool :=
  (48 ≤ c.toNat && c.toNat ≤ 57) || (65 ≤ c.toNat && c.toNat ≤ 70) || (97 ≤ c.toNat && c.toNat ≤ 102)

/-- tokenizer.rs 886-888, `is_ident_start`. (`is_alphabetic` beyond ASCII does not matter.) -/
def isIdentStart (c : Char) : Bool :=
  (65 ≤ c.toNat && c.toNat ≤ 90) || (97 ≤ c.toNat && c.toNat ≤ 122) || 128 ≤ c.toNat || c = '_'

/-- tokenizer.rs 891-893, `is_ident_char` -/
def Env.isIdentChar (env : Env) (c : Char) : Bool := isIdentStart c || env.isNum c || c = '-'

/-- unicode.rs 17-28 -/
def repl : Char := Char.ofNat 0xFFFD

/-- `char::from(Character)`, byte_stream.rs 53-60 -/
def toChar (o : Option Char) : Char := o.getD (Char.ofNat 0)

/-- tokenizer.rs 980-982, `next_char`, and byte_stream.rs 193-208: the character as `char::from` gives it, and what is left -/
def nextChar : Str → Char × Str
  | '\r' :: '\n' :: r => ('\n', r)
  | c :: r => (c, r)
  | [] => (Char.ofNat 0, [])

/-- tokenizer.rs 984-995, `look_ahead_slice` -/
def lookSlice (n : Nat) (s : Str) : Str := s.take n

/-- tokenizer.rs 909-914, `is_start_of_escape(start)` -/
def isEscape (i : Nat) (s : Str) : Bool := s[i]? = some '\\' && s[i + 1]? ≠ some '\n'

/-- tokenizer.rs 917-930, `is_next_3_points_starts_ident_seq(0)` -/
def startsIdent (s : Str) : Bool :=
  if s[0]? = some '-' then isIdentStart (toChar s[1]?) || s[1]? = some '-' || isEscape 1 s
  else if s[0]? = some '\\' then isEscape 0 s
  else isIdentStart (toChar s[0]?)

/-- tokenizer.rs 932-939, `is_signed_decimal(0)` -/
def Env.signedDecimal (env : Env) (s : Str) : Bool :=
  (s[0]? = some '+' || s[0]? = some '-') && ((s[1]? = some '.' && s[2]?.any env.isNum) || s[1]?.any env.isNum)

/-- tokenizer.rs 896-906, `is_non_printable_char` -/
def nonPrintable (c : Char) : Bool :=
  c.toNat ≤ 8 || (0x0E ≤ c.toNat && c.toNat ≤ 0x1F) || c.toNat = 0x0B || c.toNat = 0x7F

/-- tokenizer.rs 879-883, `consume_whitespace`. (Both characters of a CR LF are white space.) -/
def Env.skipWs (env : Env) (s : Str) : Str := s.dropWhile env.isWs

/-- tokenizer.rs 350-352 and 500-515, `consume_comment`: the comments before a token are skipped; `inside` tells whether we are
in one. (Inside a comment both characters of a CR LF are skipped.) -/
def skipComments (inside : Bool) : Str → Str
  | [] => []
  | [c] => if inside then [] else [c]
  | c :: d :: r =>
    if inside then (if c = '*' ∧ d = '/' then skipComments false r else skipComments true (d :: r))
    else if c = '/' ∧ d = '*' then skipComments true r
    else c :: d :: r

/-- `u32::from_str_radix(…, 16)` of hexadecimal digits -/
def hexVal (ds : Str) : Nat :=
  ds.foldl (fun n c => 16 * n + (if c.toNat ≤ 57 then c.toNat - 48 else if c.toNat ≤ 70 then c.toNat - 55 else c.toNat - 87)) 0

/-- tokenizer.rs 795-812 -/
def unescape (ds : Str) : Char :=
  if ds = [] then repl
  else if (hexVal ds).isValidChar then
    (if hexVal ds = 0 ∨ 0x10FFFF ≤ hexVal ds then repl else Char.ofNat (hexVal ds))
  else repl

/-- tokenizer.rs 775-813, `consume_escaped_token`; the list begins with the backslash -/
def Env.escaped (env : Env) (s : Str) : Char × Str :=
  let r := (nextChar s).2
  if r = [] then (repl, [])
  else
    let ds := (r.takeWhile isHex).take 6
    let r' := r.drop ds.length
    (unescape ds, if r'[0]?.any env.isWs then (nextChar r').2 else r')

/-- tokenizer.rs 626-629 and 830-833: a backslash before something that is no hexadecimal digit -/
def plainEscape (s : Str) : Bool := s[0]? = some '\\' && !s[1]?.any isHex && s[1]? ≠ none

/-- tokenizer.rs 822-856, `consume_ident` -/
def Env.ident (env : Env) : Nat → Str → Str → Option (Str × Str)
  | 0, _, _ => none
  | n + 1, s, value =>
    if plainEscape s then env.ident n (nextChar (nextChar s).2).2 (value ++ [(nextChar (nextChar s).2).1])
    else if isEscape 0 s then env.ident n (env.escaped s).2 (value ++ [(env.escaped s).1])
    else if !env.isIdentChar (toChar s[0]?) then some (value, s)
    else env.ident n (nextChar s).2 (value ++ [toChar s[0]?])

/-- tokenizer.rs 596-645, `consume_string_token`, after the opening quote -/
def Env.string (env : Env) (ending : Char) : Nat → Str → Str → Option (Token × Str)
  | 0, _, _ => none
  | n + 1, s, value =>
    if s[0]? = some ending || s.isEmpty then some (.quotedString value, (nextChar s).2)
    else if s[0]? = some '\n' then some (.badString value, s)
    else if s[0]? = some '\\' && s[1]? = some '\n' then env.string ending n (nextChar (nextChar s).2).2 value
    else if plainEscape s then env.string ending n (nextChar (nextChar s).2).2 (value ++ [(nextChar (nextChar s).2).1])
    else if isEscape 0 s then env.string ending n (env.escaped s).2 (value ++ [(env.escaped s).1])
    else env.string ending n (nextChar s).2 (value ++ [(nextChar s).1])

/-- tokenizer.rs 654-656: the sign of a number -/
def sign (s : Str) : Str × Str :=
  match s with
  | c :: r => if c = '+' ∨ c = '-' then ([c], r) else ([], s)
  | [] => ([], s)

/-- tokenizer.rs 858-866, `consume_digits` -/
def Env.digits (env : Env) (s : Str) : Str × Str := (s.takeWhile env.isNum, s.dropWhile env.isNum)

/-- tokenizer.rs 660-665 -/
def Env.fraction (env : Env) (s : Str) : Str × Str :=
  if s[0]? = some '.' && s[1]?.any env.isNum then (s.take 2 ++ (env.digits (s.drop 2)).1, (env.digits (s.drop 2)).2) else ([], s)

/-- tokenizer.rs 670-679 -/
def Env.exponent (env : Env) (s : Str) : Str × Str :=
  if (s[0]? = some 'E' || s[0]? = some 'e') &&
      (((s[1]? = some '-' || s[1]? = some '+') && s[2]?.any env.isNum) || s[1]?.any env.isNum) then
    (s.take 2 ++ (env.digits (s.drop 2)).1, (env.digits (s.drop 2)).2)
  else ([], s)

/-- tokenizer.rs 650-682, `consume_number` -/
def Env.number (env : Env) (s : Str) : Str × Str :=
  let a := sign s
  let b := env.digits a.2
  let c := env.fraction b.2
  let d := env.exponent c.2
  (a.1 ++ b.1 ++ c.1 ++ d.1, d.2)

/-- tokenizer.rs 519-535, `consume_numeric_token` -/
def Env.numeric (env : Env) (n : Nat) (s : Str) : Option (Token × Str) :=
  let (v, r) := env.number s
  if startsIdent r then (env.ident n r []).map fun (u, r') => (.dimension v u, r')
  else if r[0]? = some '%' then some (.percentage v, (nextChar r).2)
  else some (.number v, r)

/-- tokenizer.rs 540-543, `starts_unicode_range` -/
def startsRange (s : Str) : Bool := s[1]? = some '+' && s[2]?.any fun c => isHex c || c = '?'

/-- tokenizer.rs 549-591, `consume_unicode_range_token` -/
def unicodeRange (s : Str) : Token × Str :=
  let r := s.drop 2
  let ds := (r.takeWhile isHex).take 6
  let r := r.drop ds.length
  let qs := (r.takeWhile (· = '?')).take (6 - ds.length)
  let r := r.drop qs.length
  if r[0]? = some '-' && r[1]?.any isHex then
    let es := ((r.drop 1).takeWhile isHex).take 6
    (.unicodeRange (s.take 2 ++ ds ++ qs ++ ['-'] ++ es), (r.drop 1).drop es.length)
  else (.unicodeRange (s.take 2 ++ ds ++ qs), r)

/-- tokenizer.rs 758-772, `consume_remnants_of_bad_url` -/
def Env.remnants (env : Env) : Nat → Str → Option Str
  | 0, _ => none
  | n + 1, s =>
    if s[0]? = some ')' || s.isEmpty then some s
    else env.remnants n (nextChar (if isEscape 0 s then (env.escaped s).2 else s)).2

/-- tokenizer.rs 721-752, the loop of `consume_url` -/
def Env.url (env : Env) : Nat → Str → Str → Option (Token × Str)
  | 0, _, _ => none
  | n + 1, s, u =>
    if s[0]? = some ')' then some (.url u, (nextChar s).2)
    else if s.isEmpty then some (.url u, s)
    else if s[0]?.any env.isWs then env.url n (env.skipWs s) u
    else if s[0]? = some '"' || s[0]? = some '\'' || s[0]? = some '(' || s[0]?.any nonPrintable then
      (env.remnants n s).map fun r => (.badUrl u, r)
    else if isEscape 0 s then env.url n (env.escaped s).2 (u ++ [(env.escaped s).1])
    else env.url n (nextChar s).2 (u ++ [(nextChar s).1])

/-- tokenizer.rs 687-709, `consume_ident_like_seq`, and 719 -/
def Env.identLike (env : Env) (n : Nat) (s : Str) : Option (Token × Str) :=
  (env.ident n s []).bind fun (v, r) =>
    if v = "url".toList && r[0]? = some '(' then
      let r' := env.skipWs (nextChar r).2
      if r'[0]? = some '"' || r'[0]? = some '\'' then some (.function v, r') else env.url n (env.skipWs r') []
    else if r[0]? = some '(' then some (.function v, (nextChar r).2)
    else some (.ident v, r)

/-- tokenizer.rs 358-494: the match of `consume_token` -/
def Env.dispatch (env : Env) (n : Nat) (s : Str) : Option (Token × Str) :=
  match s with
  | [] => some (.eof, [])
  | c :: r =>
    if env.isWs c then some (.whitespace, env.skipWs s)
    else if c = '"' ∨ c = '\'' then env.string c n r []
    else if c = '#' then
      (if env.isIdentChar (toChar r[0]?) || isEscape 0 r then (env.ident n r []).map fun (v, r') => (.hash v, r')
       else some (.delim c, r))
    else if c = ')' then some (.rParen, r)
    else if c = '(' then some (.lParen, r)
    else if c = '[' then some (.lBracket, r)
    else if c = ']' then some (.rBracket, r)
    else if c = '{' then some (.lCurly, r)
    else if c = '}' then some (.rCurly, r)
    else if c = ',' then some (.comma, r)
    else if c = ':' then some (.colon, r)
    else if c = ';' then some (.semicolon, r)
    else if c = '+' then (if env.signedDecimal s then env.numeric n s else some (.delim c, r))
    else if c = '.' then (if r[0]?.any env.isNum then env.numeric n s else some (.delim c, r))
    else if c = '-' then
      (if env.signedDecimal s then env.numeric n s
       else if lookSlice 3 s = "-->".toList then some (.cdc, s.drop 3)
       else if startsIdent s then env.identLike n s
       else some (.delim c, r))
    else if c = '<' then (if lookSlice 4 s = "<!--".toList then some (.cdo, s.drop 4) else some (.delim c, r))
    else if c = '@' then
      (if startsIdent r then (env.ident n r []).map fun (v, r') => (.atKeyword v, r') else some (.delim c, r))
    else if c = '\\' then (if isEscape 0 s then env.identLike n s else some (.delim c, r))
    else if env.isNum c then env.numeric n s
    else if (c = 'u' ∨ c = 'U') ∧ startsRange s then some (unicodeRange s)
    else if isIdentStart c then env.identLike n s
    else some (.delim c, r)

/-- tokenizer.rs 342-497, `consume_token`; `first` is `self.tokens.is_empty()` -/
def Env.token (env : Env) (n : Nat) (first : Bool) (s : Str) : Option (Token × Str) :=
  let s := if first && s[0]? = some (Char.ofNat 0xFEFF) then (nextChar s).2 else s
  env.dispatch n (skipComments false s)

/-- tokenizer.rs 225-231, `Tokenizer`: what is left of the stream, the tokens read, and the position in them -/
structure Tokenizer where
  rest : Str
  tokens : List Token
  pos : Nat

/-- tokenizer.rs 236-243 -/
def Tokenizer.new (s : Str) : Tokenizer := ⟨s, [], 0⟩

/-- tokenizer.rs 296-297 and 312-313: one more token -/
def Tokenizer.more (env : Env) (n : Nat) (t : Tokenizer) : Option Tokenizer :=
  (env.token n t.tokens.isEmpty t.rest).map fun (k, r) => { t with rest := r, tokens := t.tokens ++ [k] }

/-- tokenizer.rs 295-298: more tokens until there are `want` -/
def Tokenizer.fill (env : Env) (n : Nat) : Nat → Tokenizer → Option Tokenizer
  | 0, t => some t
  | k + 1, t => (t.more env n).bind (Tokenizer.fill env n k)

/-- tokenizer.rs 294-307, `lookahead` -/
def Tokenizer.lookahead (env : Env) (n : Nat) (t : Tokenizer) (offset : Nat) : Option (Token × Tokenizer) :=
  (t.fill env n (t.pos + offset + 1 - t.tokens.length)).map fun t => (t.tokens[t.pos + offset]?.getD .eof, t)

/-- tokenizer.rs 310-322, `consume`. The inner `none` is the panic of an index out of range. -/
def Tokenizer.consume (env : Env) (n : Nat) (t : Tokenizer) : Option (Option Token × Tokenizer) :=
  (if t.tokens.isEmpty || t.tokens.length = t.pos then t.more env n else some t).map fun t =>
    (t.tokens[t.pos]?, { t with pos := t.pos + 1 })

/-- tokenizer.rs 325-329, `reconsume` -/
def Tokenizer.reconsume (t : Tokenizer) : Tokenizer := if t.pos > 0 then { t with pos := t.pos - 1 } else t

/-- tokenizer.rs 265-275, `current` -/
def Tokenizer.current (t : Tokenizer) : Token :=
  if t.pos = 0 then .eof else if t.pos > t.tokens.length then .eof else t.tokens[t.pos - 1]?.getD .eof

/-- tokenizer.rs 278-290, `lookahead_sc`. (There are no comment tokens.) -/
def Tokenizer.lookaheadSc (env : Env) (n : Nat) : Nat → Tokenizer → Nat → Option (Token × Tokenizer)
  | 0, _, _ => none
  | k + 1, t, i =>
    (t.lookahead env n i).bind fun (tok, t) => if tok = .whitespace then t.lookaheadSc env n k (i + 1) else some (tok, t)

end Verif.CssTok
