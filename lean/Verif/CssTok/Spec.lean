import Verif.CssTok.Model

/-!
# CSS Syntax Module Level 3, section 4: tokenization

Written from the text of the standard. The value of numbers is not computed: number tokens carry their representation. Hash
tokens carry no type flag, bad-string and bad-url tokens no value.
-/

namespace Verif.CssTok.Standard

/-! ## 4.2 Definitions -/

def digits : Str := "0123456789".toList
def hexDigits : Str := "0123456789ABCDEFabcdef".toList
def letters : Str := "ABCDEFGHIJKLMNOPQRSTUVWXYZabcdefghijklmnopqrstuvwxyz".toList

def Digit (c : Char) : Prop := c ∈ digits
def HexDigit (c : Char) : Prop := c ∈ hexDigits
def IdentStart (c : Char) : Prop := c ∈ letters ∨ 0x80 ≤ c.toNat ∨ c = '_'
def IdentChar (c : Char) : Prop := IdentStart c ∨ Digit c ∨ c = '-'
def NonPrintable (c : Char) : Prop :=
  c.toNat ≤ 8 ∨ c.toNat = 0x0B ∨ (0x0E ≤ c.toNat ∧ c.toNat ≤ 0x1F) ∨ c.toNat = 0x7F
def Whitespace (c : Char) : Prop := c ∈ ['\n', '\t', ' ']

/-- `s` starts with a character that is `P` -/
def Starts (P : Char → Prop) (s : Str) : Prop := ∃ c r, s = c :: r ∧ P c

/-! ## 3.3 Preprocessing -/

/-- CR LF, CR and FF become LF, NUL becomes U+FFFD. (There are no surrogates in a Rust string.) -/
def preprocess : Str → Str
  | [] => []
  | '\r' :: '\n' :: r => '\n' :: preprocess r
  | c :: r =>
    (if c = '\r' ∨ c = '\x0C' then '\n' else if c = Char.ofNat 0 then Char.ofNat 0xFFFD else c) :: preprocess r

/-! ## 4.3.8 – 4.3.10 Checks -/

def ValidEscape (s : Str) : Prop := ∃ r, s = '\\' :: r ∧ r.head? ≠ some '\n'

def StartsIdent (s : Str) : Prop :=
  Starts IdentStart s ∨ ValidEscape s ∨ ∃ r, s = '-' :: r ∧ (Starts (fun c => IdentStart c ∨ c = '-') r ∨ ValidEscape r)

def StartsUnsigned (s : Str) : Prop := Starts Digit s ∨ ∃ r, s = '.' :: r ∧ Starts Digit r

def StartsNumber (s : Str) : Prop := StartsUnsigned s ∨ ∃ c r, s = c :: r ∧ (c = '+' ∨ c = '-') ∧ StartsUnsigned r

/-! ## 4.3.7 Consume an escaped code point -/

/-- the value of a hexadecimal digit -/
def digitValue (c : Char) : Nat :=
  if c ∈ digits then digits.idxOf c else if c ∈ "ABCDEF".toList then 10 + "ABCDEF".toList.idxOf c else 10 + "abcdef".toList.idxOf c

def number (ds : Str) : Nat := ds.foldl (fun n c => n * 16 + digitValue c) 0

/-- "If this number is zero, or is for a surrogate, or is greater than the maximum allowed code point, return U+FFFD" -/
def codePoint (n : Nat) : Char :=
  if n = 0 ∨ (0xD800 ≤ n ∧ n ≤ 0xDFFF) ∨ 0x10FFFF < n then Char.ofNat 0xFFFD else Char.ofNat n

/-- after the backslash -/
inductive Escaped : Str → Char → Str → Prop
  | hex {ds w r : Str} (h0 : ds ≠ []) (h6 : ds.length ≤ 6) (hd : ∀ c ∈ ds, HexDigit c)
      (hmax : ds.length = 6 ∨ ¬ Starts HexDigit (w ++ r))
      (hw : (∃ c, w = [c] ∧ Whitespace c) ∨ (w = [] ∧ ¬ Starts Whitespace r)) : Escaped (ds ++ w ++ r) (codePoint (number ds)) r
  | eof : Escaped [] (Char.ofNat 0xFFFD) []
  | other {c : Char} {r : Str} (h : ¬ HexDigit c) : Escaped (c :: r) c r

/-! ## 4.3.11 Consume an ident sequence -/

inductive Name : Str → Str → Str → Prop
  | char {c : Char} {s v r : Str} (hc : IdentChar c) (h : Name s v r) : Name (c :: s) (c :: v) r
  | escape {s s' v r : Str} {c : Char} (hv : ValidEscape ('\\' :: s)) (he : Escaped s c s') (h : Name s' v r) : Name ('\\' :: s) (c :: v) r
  | stop {s : Str} (h : ¬ Starts IdentChar s) (hv : ¬ ValidEscape s) : Name s [] s

/-! ## 4.3.5 Consume a string token: `v` is the value so far -/

inductive StringTail (ending : Char) : Str → Str → Token → Str → Prop
  | close {v r : Str} : StringTail ending v (ending :: r) (.quotedString v) r
  | eof {v : Str} : StringTail ending v [] (.quotedString v) []
  | newline {v r : Str} : StringTail ending v ('\n' :: r) (.badString []) ('\n' :: r)
  | backslashEof {v : Str} : StringTail ending v ['\\'] (.quotedString v) []
  | continuation {v s r : Str} {t : Token} (h : StringTail ending v s t r) : StringTail ending v ('\\' :: '\n' :: s) t r
  | escape {v s s' r : Str} {c : Char} {t : Token} (h0 : s ≠ []) (hv : ValidEscape ('\\' :: s)) (he : Escaped s c s')
      (h : StringTail ending (v ++ [c]) s' t r) : StringTail ending v ('\\' :: s) t r
  | other {v s r : Str} {c : Char} {t : Token} (h1 : c ≠ ending) (h2 : c ≠ '\n') (h3 : c ≠ '\\')
      (h : StringTail ending (v ++ [c]) s t r) : StringTail ending v (c :: s) t r

/-! ## 4.3.12 Consume a number -/

/-- as many digits as possible -/
def Digits (ds r : Str) : Prop := (∀ c ∈ ds, Digit c) ∧ ¬ Starts Digit r

inductive Sign : Str → Str → Str → Prop
  | some {c : Char} {r : Str} (h : c = '+' ∨ c = '-') : Sign (c :: r) [c] r
  | none {s : Str} (h : ¬ Starts (fun c => c = '+' ∨ c = '-') s) : Sign s [] s

inductive Fraction : Str → Str → Str → Prop
  | some {ds r : Str} (h0 : ds ≠ []) (h : Digits ds r) : Fraction ('.' :: (ds ++ r)) ('.' :: ds) r
  | none {s : Str} (h : ¬ ∃ r, s = '.' :: r ∧ Starts Digit r) : Fraction s [] s

inductive Exponent : Str → Str → Str → Prop
  | some {e : Char} {sg ds r : Str} (he : e = 'e' ∨ e = 'E') (hs : sg = [] ∨ sg = ['+'] ∨ sg = ['-']) (h0 : ds ≠ [])
      (h : Digits ds r) : Exponent (e :: (sg ++ ds ++ r)) (e :: (sg ++ ds)) r
  | none {s : Str} (h : ¬ ∃ e sg r, s = e :: (sg ++ r) ∧ (e = 'e' ∨ e = 'E') ∧ (sg = [] ∨ sg = ['+'] ∨ sg = ['-']) ∧ Starts Digit r) :
      Exponent s [] s

inductive Number : Str → Str → Str → Prop
  | mk {s sg s1 ds s2 fr s3 ex r : Str} (h1 : Sign s sg s1) (h2 : s1 = ds ++ s2 ∧ Digits ds s2) (h3 : Fraction s2 fr s3)
      (h4 : Exponent s3 ex r) : Number s (sg ++ ds ++ fr ++ ex) r

/-! ## 4.3.3 Consume a numeric token -/

inductive Numeric : Str → Token → Str → Prop
  | dimension {s v r u r' : Str} (h : Number s v r) (hi : StartsIdent r) (hn : Name r u r') : Numeric s (.dimension v u) r'
  | percentage {s v r : Str} (h : Number s v ('%' :: r)) : Numeric s (.percentage v) r
  | number {s v r : Str} (h : Number s v r) (hi : ¬ StartsIdent r) (hp : r.head? ≠ some '%') : Numeric s (.number v) r

/-! ## 4.3.6 and 4.3.14 Consume a url token, consume the remnants of a bad url -/

inductive Remnants : Str → Str → Prop
  | close {r : Str} : Remnants (')' :: r) r
  | eof : Remnants [] []
  | escape {s s' r : Str} {c : Char} (hv : ValidEscape ('\\' :: s)) (he : Escaped s c s') (h : Remnants s' r) : Remnants ('\\' :: s) r
  | other {c : Char} {s r : Str} (hc : c ≠ ')') (hv : ¬ ValidEscape (c :: s)) (h : Remnants s r) : Remnants (c :: s) r

/-- all the white space at the start -/
def Skips (s r : Str) : Prop := ∃ w, s = w ++ r ∧ (∀ c ∈ w, Whitespace c) ∧ ¬ Starts Whitespace r

/-- what no url can hold -/
def NotInUrl (c : Char) : Prop := c = '"' ∨ c = '\'' ∨ c = '(' ∨ NonPrintable c

inductive Url : Str → Str → Token → Str → Prop
  | close {v r : Str} : Url v (')' :: r) (.url v) r
  | eof {v : Str} : Url v [] (.url v) []
  | space {v s r : Str} (hw : Starts Whitespace s) (hs : Skips s (')' :: r)) : Url v s (.url v) r
  | spaceEof {v s : Str} (hw : Starts Whitespace s) (hs : Skips s []) : Url v s (.url v) []
  | badSpace {v s s' r : Str} (hw : Starts Whitespace s) (hs : Skips s s') (h0 : s' ≠ []) (h1 : s'.head? ≠ some ')')
      (h : Remnants s' r) : Url v s (.badUrl []) r
  | bad {v s r : Str} {c : Char} (hc : NotInUrl c) (h : Remnants s r) : Url v (c :: s) (.badUrl []) r
  | escape {v s s' r : Str} {c : Char} {t : Token} (hv : ValidEscape ('\\' :: s)) (he : Escaped s c s')
      (h : Url (v ++ [c]) s' t r) : Url v ('\\' :: s) t r
  | badEscape {v s r : Str} (hv : ¬ ValidEscape ('\\' :: s)) (h : Remnants s r) : Url v ('\\' :: s) (.badUrl []) r
  | other {v s r : Str} {c : Char} {t : Token} (h1 : c ≠ ')') (h2 : ¬ Whitespace c) (h3 : ¬ NotInUrl c) (h4 : c ≠ '\\')
      (h : Url (v ++ [c]) s t r) : Url v (c :: s) t r

/-! ## 4.3.4 Consume an ident-like token -/

/-- an ASCII case-insensitive match for "url" -/
def isUrl (v : Str) : Prop := v.map (fun c => if c ∈ "URL".toList then Char.ofNat (c.toNat + 32) else c) = "url".toList

inductive IdentLike : Str → Token → Str → Prop
  | quotedUrl {s v r r' : Str} (h : Name s v ('(' :: r)) (hu : isUrl v)
      (hw : r' = r ∧ ¬ Starts Whitespace r ∨ ∃ c w, Whitespace c ∧ r' = c :: w ∧ ¬ Starts Whitespace w ∧ ∃ u, r = u ++ r' ∧ ∀ x ∈ u, Whitespace x)
      (hq : ∃ w, Skips r w ∧ (w.head? = some '"' ∨ w.head? = some '\'')) : IdentLike s (.function v) r'
  | url {s v r r1 r' : Str} {t : Token} (h : Name s v ('(' :: r)) (hu : isUrl v) (hs : Skips r r1)
      (hq : r1.head? ≠ some '"' ∧ r1.head? ≠ some '\'') (ht : Url [] r1 t r') : IdentLike s t r'
  | function {s v r : Str} (h : Name s v ('(' :: r)) (hu : ¬ isUrl v) : IdentLike s (.function v) r
  | ident {s v r : Str} (h : Name s v r) (hp : r.head? ≠ some '(') : IdentLike s (.ident v) r

/-! ## 4.3.2 Consume comments -/

inductive Comments : Str → Str → Prop
  | comment {c s r : Str} (hc : ¬ "*/".toList <:+: c ++ ['*']) (h : Comments s r) : Comments ("/*".toList ++ c ++ "*/".toList ++ s) r
  | open {c : Str} (hc : ¬ "*/".toList <:+: c) : Comments ("/*".toList ++ c) []
  | none {s : Str} (h : ¬ "/*".toList <+: s) : Comments s s

/-! ## 4.3.1 Consume a token -/

/-- the characters that are tokens of their own -/
def punctuation : List (Char × Token) :=
  [('(', .lParen), (')', .rParen), (',', .comma), (':', .colon), (';', .semicolon), ('[', .lBracket), (']', .rBracket),
   ('{', .lCurly), ('}', .rCurly)]

/-- after comments -/
inductive Consume : Str → Token → Str → Prop
  | eof : Consume [] .eof []
  | whitespace {s r : Str} (hw : Starts Whitespace s) (hs : Skips s r) : Consume s .whitespace r
  | string {q : Char} {s r : Str} {t : Token} (hq : q = '"' ∨ q = '\'') (h : StringTail q [] s t r) : Consume (q :: s) t r
  | hash {s v r : Str} (hi : Starts IdentChar s ∨ ValidEscape s) (h : Name s v r) : Consume ('#' :: s) (.hash v) r
  | hashDelim {s : Str} (hi : ¬ (Starts IdentChar s ∨ ValidEscape s)) : Consume ('#' :: s) (.delim '#') s
  | punctuation {c : Char} {t : Token} {s : Str} (h : (c, t) ∈ punctuation) : Consume (c :: s) t s
  | numeric {c : Char} {s r : Str} {t : Token} (hc : c = '+' ∨ c = '.' ∨ c = '-' ∨ Digit c) (hn : StartsNumber (c :: s))
      (h : Numeric (c :: s) t r) : Consume (c :: s) t r
  | delim {c : Char} {s : Str} (hc : c = '+' ∨ c = '.') (hn : ¬ StartsNumber (c :: s)) : Consume (c :: s) (.delim c) s
  | cdc {s : Str} : Consume ('-' :: '-' :: '>' :: s) .cdc s
  | minusIdent {s r : Str} {t : Token} (hn : ¬ StartsNumber ('-' :: s)) (hc : ¬ "->".toList <+: s) (hi : StartsIdent ('-' :: s))
      (h : IdentLike ('-' :: s) t r) : Consume ('-' :: s) t r
  | minusDelim {s : Str} (hn : ¬ StartsNumber ('-' :: s)) (hc : ¬ "->".toList <+: s) (hi : ¬ StartsIdent ('-' :: s)) :
      Consume ('-' :: s) (.delim '-') s
  | cdo {s : Str} : Consume ('<' :: '!' :: '-' :: '-' :: s) .cdo s
  | lessDelim {s : Str} (hc : ¬ "!--".toList <+: s) : Consume ('<' :: s) (.delim '<') s
  | atKeyword {s v r : Str} (hi : StartsIdent s) (h : Name s v r) : Consume ('@' :: s) (.atKeyword v) r
  | atDelim {s : Str} (hi : ¬ StartsIdent s) : Consume ('@' :: s) (.delim '@') s
  | backslash {s r : Str} {t : Token} (hv : ValidEscape ('\\' :: s)) (h : IdentLike ('\\' :: s) t r) : Consume ('\\' :: s) t r
  | backslashDelim {s : Str} (hv : ¬ ValidEscape ('\\' :: s)) : Consume ('\\' :: s) (.delim '\\') s
  | ident {c : Char} {s r : Str} {t : Token} (hc : IdentStart c) (h : IdentLike (c :: s) t r) : Consume (c :: s) t r
  | other {c : Char} {s : Str} (h1 : ¬ Whitespace c) (h2 : c ∉ "\"'#+.-<@\\".toList) (h3 : c ∉ punctuation.map (·.1)) (h4 : ¬ Digit c)
      (h5 : ¬ IdentStart c) : Consume (c :: s) (.delim c) s

/-- 4.3.1 -/
def Next (s : Str) (t : Token) (r : Str) : Prop := ∃ s', Comments s s' ∧ Consume s' t r

/-- 4: all the tokens, the last being the EOF token -/
inductive Tokens : Str → List Token → Prop
  | eof {s r : Str} (h : Next s .eof r) : Tokens s [.eof]
  | next {s r : Str} {t : Token} {ts : List Token} (h : Next s t r) (ht : t ≠ .eof) (hs : Tokens r ts) : Tokens s (t :: ts)

end Verif.CssTok.Standard

namespace Verif.CssTok

/-- the engine's tokens of what is left, `first` for the start of the text: as many calls of the tokenizer as there are, each with
as many rounds as it takes -/
inductive Yields (env : Env) : Bool → Str → List Token → Prop
  | eof {first : Bool} {s r : Str} {n : Nat} (h : env.token n first s = some (.eof, r)) : Yields env first s [.eof]
  | next {first : Bool} {s r : Str} {n : Nat} {t : Token} {ts : List Token} (h : env.token n first s = some (t, r)) (ht : t ≠ .eof)
      (hs : Yields env false r ts) : Yields env first s (t :: ts)

/-- bad tokens without their values -/
def bare : Token → Token
  | .badString _ => .badString []
  | .badUrl _ => .badUrl []
  | t => t

/-- 3.2: the decoder drops a byte order mark -/
def decode : Str → Str
  | c :: s => if c = Char.ofNat 0xFEFF then s else c :: s
  | [] => []

/-- Text for which the engine keeps to the standard: no CR, FF, VT or NUL, no white space or numerals beyond ASCII; no backslash at the
end or before a newline; no escape for U+10FFFF; no `u+` followed by a hexadecimal digit or `?`; and every `url(` is in small
letters and followed by a url without escapes, inner white space or what no url can hold, or at once by a quote. -/
structure Tame (env : Env) (s : Str) : Prop where
  chars : ∀ c ∈ s, c ≠ '\r' ∧ c ≠ '\x0B' ∧ c ≠ '\x0C' ∧ c ≠ Char.ofNat 0 ∧
    (128 ≤ c.toNat → env.ws c = false ∧ env.num c = false)
  last : ¬ ['\\'] <:+ s
  newline : ¬ ['\\', '\n'] <:+: s
  max : ∀ t c r, '\\' :: t <:+ s → Standard.Escaped t c r → c.toNat ≠ 0x10FFFF
  range : ∀ u c t, u :: '+' :: c :: t <:+ s → u = 'u' ∨ u = 'U' → ¬ (Standard.HexDigit c ∨ c = '?')
  url : ∀ t v r, t <:+ s → Standard.Name t v ('(' :: r) → Standard.isUrl v → v = "url".toList ∧
    ((r.head? = some '"' ∨ r.head? = some '\'') ∨
      ∃ a b c d, r = a ++ b ++ c ++ d ∧ (∀ x ∈ a ++ c, Standard.Whitespace x) ∧
        (∀ x ∈ b, ¬ Standard.Whitespace x ∧ ¬ Standard.NotInUrl x ∧ x ≠ ')' ∧ x ≠ '\\') ∧ (d = [] ∨ d.head? = some ')'))

end Verif.CssTok

/-! ## CSSOM 2.1: serialising identifiers and strings -/

namespace Verif.CssTok.Cssom

/-- escape a character as code point -/
def code (c : Char) : Str := '\\' :: Nat.toDigits 16 c.toNat ++ [' ']

/-- the characters that are escaped as code points wherever they are -/
def Control (c : Char) : Prop := (1 ≤ c.toNat ∧ c.toNat ≤ 0x1F) ∨ c.toNat = 0x7F

instance (c : Char) : Decidable (Control c) := inferInstanceAs (Decidable ((1 ≤ c.toNat ∧ c.toNat ≤ 0x1F) ∨ c.toNat = 0x7F))

def identChar (c : Char) : Str :=
  if c = Char.ofNat 0 then [Char.ofNat 0xFFFD]
  else if Control c then code c
  else if 0x80 ≤ c.toNat ∨ c = '-' ∨ c = '_' ∨ c ∈ Standard.digits ∨ c ∈ Standard.letters then [c]
  else ['\\', c]

/-- serialize an identifier -/
def ident : Str → Str
  | [] => []
  | c :: v =>
    if c ∈ Standard.digits then code c ++ v.flatMap identChar
    else if c = '-' then
      match v with
      | [] => ['\\', '-']
      | d :: v => '-' :: (if d ∈ Standard.digits then code d else identChar d) ++ v.flatMap identChar
    else identChar c ++ v.flatMap identChar

def stringChar (c : Char) : Str :=
  if c = Char.ofNat 0 then [Char.ofNat 0xFFFD]
  else if Control c then code c
  else if c = '"' ∨ c = '\\' then ['\\', c]
  else [c]

/-- serialize a string -/
def string (v : Str) : Str := '"' :: v.flatMap stringChar ++ ['"']

/-- the value, which cannot hold a NUL -/
def value (v : Str) : Str := v.map fun c => if c = Char.ofNat 0 then Char.ofNat 0xFFFD else c

/-- nothing that would go on with a name -/
def Apart (r : Str) : Prop := ∀ c, r.head? = some c → c.toNat < 128 ∧ ¬ Standard.IdentChar c ∧ c ≠ '\\'

end Verif.CssTok.Cssom

/-! ## Reading tokens with the buffer -/

namespace Verif.CssTok

/-- what the parser asks of the tokenizer -/
inductive Op
  | consume
  | lookahead (k : Nat)
  | lookaheadSc (k : Nat)
  | reconsume
  | current

/-- one request: the answer, if there is one, and the tokenizer after it; `none` if it does not end, `some none` for a panic -/
def Tokenizer.ask (env : Env) (n : Nat) (t : Tokenizer) : Op → Option (List (Option Token) × Tokenizer)
  | .consume => (t.consume env n).map fun (x, t) => ([x], t)
  | .lookahead k => (t.lookahead env n k).map fun (x, t) => ([some x], t)
  | .lookaheadSc k => (t.lookaheadSc env n n k).map fun (x, t) => ([some x], t)
  | .reconsume => some ([], t.reconsume)
  | .current => some ([some t.current], t)

/-- a history of requests and its answers -/
def Tokenizer.answers (env : Env) (n : Nat) (t : Tokenizer) : List Op → Option (List (Option Token))
  | [] => some []
  | op :: ops => (t.ask env n op).bind fun (x, t) => (t.answers env n ops).map (x ++ ·)

/-- the same on a list of tokens `f 0, f 1, …` of which `p` have been read -/
inductive Plays (f : Nat → Token) : Nat → List Op → List Token → Prop
  | nil {p : Nat} : Plays f p [] []
  | consume {p : Nat} {ops : List Op} {out : List Token} (h : Plays f (p + 1) ops out) : Plays f p (.consume :: ops) (f p :: out)
  | lookahead {p k : Nat} {ops : List Op} {out : List Token} (h : Plays f p ops out) : Plays f p (.lookahead k :: ops) (f (p + k) :: out)
  | lookaheadSc {p k j : Nat} {ops : List Op} {out : List Token} (h1 : p + k ≤ j) (h2 : ∀ i, p + k ≤ i → i < j → f i = .whitespace)
      (h3 : f j ≠ .whitespace) (h : Plays f p ops out) : Plays f p (.lookaheadSc k :: ops) (f j :: out)
  | reconsume {p : Nat} {ops : List Op} {out : List Token} (h : Plays f (p - 1) ops out) : Plays f p (.reconsume :: ops) out
  | current {p : Nat} {ops : List Op} {out : List Token} (h : Plays f p ops out) :
      Plays f p (.current :: ops) ((if p = 0 then .eof else f (p - 1)) :: out)

end Verif.CssTok
