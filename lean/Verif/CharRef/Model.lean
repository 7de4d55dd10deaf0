import Verif.CharRef.Table
import Verif.Map

/-!
# Character references

Model of `Tokenizer::consume_character_reference` (gosub_html5/src/tokenizer/character_reference.rs
26-343) and its tables (gosub_html5/src/tokenizer/replacement_tables.rs).

Simplifications: the stream is the list of characters still to be read, CR LF already collapsed (the
ByteStream area proves that reading a stream gives this list, that one step back undoes one read,
and that the end marker is returned for ever after); the stream is closed and holds no lone
surrogates; `u32` is `Nat` with explicit checked operations; parse errors and locations are left out
(they do not feed back into the result).
-/
namespace Verif.CharRef

open Verif.Map

/-- replacement_tables.rs 79-2312, `TOKEN_NAMED_CHARS` as a map from names to text. -/
def tokenNamedChars : List (Str × Str) := namedRaw.map fun e => (e.1, e.2.map Char.ofNat)

/-- replacement_tables.rs 6-75, `TOKEN_REPLACEMENTS`. -/
def tokenReplacements : List (Nat × Nat) := [
  (0x00, 0xFFFD), (0x0D, 0x0D), (0x80, 0x20AC), (0x81, 0x81), (0x82, 0x201A), (0x83, 0x0192),
  (0x84, 0x201E), (0x85, 0x2026), (0x86, 0x2020), (0x87, 0x2021), (0x88, 0x02C6), (0x89, 0x2030),
  (0x8A, 0x0160), (0x8B, 0x2039), (0x8C, 0x0152), (0x8D, 0x8D), (0x8E, 0x017D), (0x8F, 0x8F),
  (0x90, 0x90), (0x91, 0x2018), (0x92, 0x2019), (0x93, 0x201C), (0x94, 0x201D), (0x95, 0x2022),
  (0x96, 0x2013), (0x97, 0x2014), (0x98, 0x02DC), (0x99, 0x2122), (0x9A, 0x0161), (0x9B, 0x203A),
  (0x9C, 0x0153), (0x9D, 0x9D), (0x9E, 0x017E), (0x9F, 0x0178)]

/-- The parts of the `Tokenizer` the function reads and writes: the characters still to be read,
`consumed` and `current_attr_value`. -/
structure St where
  rest : Str
  consumed : Str
  attrValue : Str
deriving DecidableEq

/-- character_reference.rs 295-302, `consume_temp_buffer` (and the same choice at 80-86, 107-111);
the temporary buffer is the argument `t`. -/
def flush (asAttribute : Bool) (s : St) (t : Str) : St :=
  if asAttribute then { s with attrValue := s.attrValue ++ t }
  else { s with consumed := s.consumed ++ t }

/-- `char::is_ascii_alphanumeric` -/
def isAlnum (c : Char) : Bool :=
  (48 ≤ c.toNat && c.toNat ≤ 57) || (65 ≤ c.toNat && c.toNat ≤ 90) || (97 ≤ c.toNat && c.toNat ≤ 122)

/-- `char::len_utf8` -/
def lenUtf8 (c : Char) : Nat :=
  if c.toNat < 0x80 then 1 else if c.toNat < 0x800 then 2 else if c.toNat < 0x10000 then 3 else 4

/-- `str::len`: bytes of the UTF-8 form -/
def strLen (s : Str) : Nat := (s.map lenUtf8).sum

/-- character_reference.rs 346-351, `LONGEST_ENTITY_LENGTH`. -/
def longestEntityLength (T : List (Str × Str)) : Nat := (T.map fun e => strLen e.1).foldl max 0

/-- gosub_shared/src/byte_stream.rs 258-266, `get_slice`, with each character already turned into
text as at character_reference.rs 335 (`Display`, byte_stream.rs 62-70): past the end every
character prints as `StreamEnd`. -/
def getSlice (n : Nat) (rest : Str) : List Str :=
  (rest.take n).map (fun c => [c]) ++ List.replicate (n - rest.length) "StreamEnd".toList

/-- character_reference.rs 333-340, the loop over prefixes from the longest down to the empty one. -/
def tryPrefixes (T : List (Str × Str)) (chars : List Str) : Nat → Option Str
  | 0 => if (look T []).isSome then some [] else none
  | i + 1 =>
    if (look T (chars.take (i + 1)).flatten).isSome then some (chars.take (i + 1)).flatten
    else tryPrefixes T chars i

/-- character_reference.rs 330-343, `find_entity`. -/
def findEntity (T : List (Str × Str)) (rest : Str) : Option Str :=
  tryPrefixes T (getSlice (longestEntityLength T) rest) (getSlice (longestEntityLength T) rest).length

/-- character_reference.rs 102-127, state `AmbiguousAmpersand`: copy letters and digits. -/
def ambiguousAmpersand (asAttribute : Bool) (consumed attrValue : Str) : Str → St
  | [] => ⟨[], consumed, attrValue⟩
  | c :: r =>
    if isAlnum c then
      (if asAttribute then ambiguousAmpersand asAttribute consumed (attrValue ++ [c]) r
       else ambiguousAmpersand asAttribute (consumed ++ [c]) attrValue r)
    else ⟨c :: r, consumed, attrValue⟩

/-- `stream.look_ahead(0)` is `=` or an ASCII letter or digit, character_reference.rs 64. -/
def legacyNext : Str → Bool
  | [] => false
  | c :: _ => decide (c = '=') || isAlnum c

/-- `entity.ends_with(';')` -/
def endsSemi (e : Str) : Bool := decide (e.getLast? = some ';')

/-- character_reference.rs 57-101, state `NamedCharacterReference`. -/
def named (T : List (Str × Str)) (asAttribute : Bool) (s : St) : St :=
  match findEntity T s.rest with
  | some entity =>
    let r := s.rest.drop (strLen entity)
    if asAttribute && !endsSemi entity && legacyNext r then
      flush asAttribute { s with rest := r } ('&' :: entity)
    else
      flush asAttribute { s with rest := r } ((look T entity).getD [])
  | none =>
    ambiguousAmpersand asAttribute (flush asAttribute s ['&']).consumed
      (flush asAttribute s ['&']).attrValue s.rest

/-- `u32::checked_mul(radix).and_then(|m| m.checked_add(i))` on the `Option` accumulator,
character_reference.rs 199-201 (and 205-207, 211-213, 236-238). -/
def accumulate (code : Option Nat) (radix i : Nat) : Option Nat :=
  match code with
  | none => none
  | some v => if v * radix < 2 ^ 32 then (if v * radix + i < 2 ^ 32 then some (v * radix + i) else none) else none

/-- character_reference.rs 304-306, `is_surrogate`. -/
def isSurrogate (n : Nat) : Bool := decide (0xD800 ≤ n ∧ n ≤ 0xDFFF)

/-- character_reference.rs 319-326, `is_control_char`. -/
def isControlChar (n : Nat) : Bool :=
  if n ∈ [0x0009, 0x000A, 0x000C, 0x000D, 0x0020] then false
  else decide (0x0001 ≤ n ∧ n ≤ 0x001F) || decide (0x007F ≤ n ∧ n ≤ 0x009F)

/-- `char::from_u32(n).unwrap_or(CHAR_REPLACEMENT)`, character_reference.rs 285. -/
def charFromU32 (n : Nat) : Char := if n.isValidChar then Char.ofNat n else Char.ofNat 0xFFFD

/-- character_reference.rs 255-283: the code point after the successive replacements.  The
noncharacter test (272-275) only reports an error. -/
def endCode (code : Option Nat) : Nat :=
  let overflow := code.isNone
  let c0 := code.getD 0
  let c1 := if c0 = 0 ∧ overflow = false then 0xFFFD else c0
  let c2 := if c1 > 0x10FFFF ∨ overflow = true then 0xFFFD else c1
  let c3 := if isSurrogate c2 then 0xFFFD else c2
  if isControlChar c3 || decide (c3 = 0x0D) then (look tokenReplacements c3).getD c3 else c3

/-- character_reference.rs 254-290, state `NumericalCharacterReferenceEnd`. -/
def numericEnd (asAttribute : Bool) (s : St) (code : Option Nat) : St :=
  flush asAttribute s [charFromU32 (endCode code)]

/-- `'0'..='9'` -/
def isDec (c : Char) : Bool := decide (48 ≤ c.toNat ∧ c.toNat ≤ 57)
/-- `'A'..='F'` -/
def isHexUpper (c : Char) : Bool := decide (65 ≤ c.toNat ∧ c.toNat ≤ 70)
/-- `'a'..='f'` -/
def isHexLower (c : Char) : Bool := decide (97 ≤ c.toNat ∧ c.toNat ≤ 102)

/-- character_reference.rs 229-253, state `DecimalCharacterReference`. -/
def decimalLoop (code : Option Nat) : Str → Option Nat × Str
  | [] => (code, [])
  | c :: r =>
    if isDec c then decimalLoop (accumulate code 10 (c.toNat - 0x30)) r
    else if c = ';' then (code, r) else (code, c :: r)

/-- character_reference.rs 192-228, state `HexadecimalCharacterReference`. -/
def hexLoop (code : Option Nat) : Str → Option Nat × Str
  | [] => (code, [])
  | c :: r =>
    if isDec c then hexLoop (accumulate code 16 (c.toNat - 0x30)) r
    else if isHexUpper c then hexLoop (accumulate code 16 (c.toNat - 0x37)) r
    else if isHexLower c then hexLoop (accumulate code 16 (c.toNat - 0x57)) r
    else if c = ';' then (code, r) else (code, c :: r)

/-- character_reference.rs 170-191, state `DecimalCharacterReferenceStart` and what follows; `rest`
is the text after `&#`. -/
def decimalStart (asAttribute : Bool) (s : St) : St :=
  match s.rest with
  | [] => flush asAttribute s ['&', '#']
  | c :: _ =>
    if isDec c then
      numericEnd asAttribute { s with rest := (decimalLoop (some 0) s.rest).2 } (decimalLoop (some 0) s.rest).1
    else flush asAttribute s ['&', '#']

/-- character_reference.rs 147-169, state `HexadecimalCharacterReferenceStart` and what follows; `x`
is the `x` or `X` read. -/
def hexStart (asAttribute : Bool) (s : St) (x : Char) : St :=
  match s.rest with
  | [] => flush asAttribute s ['&', '#', x]
  | c :: _ =>
    if isDec c || isHexUpper c || isHexLower c then
      numericEnd asAttribute { s with rest := (hexLoop (some 0) s.rest).2 } (hexLoop (some 0) s.rest).1
    else flush asAttribute s ['&', '#', x]

/-- character_reference.rs 128-146, state `NumericCharacterReference`. -/
def numeric (asAttribute : Bool) (s : St) : St :=
  match s.rest with
  | [] => decimalStart asAttribute s
  | c :: r =>
    if c = 'X' ∨ c = 'x' then hexStart asAttribute { s with rest := r } c
    else decimalStart asAttribute s

/-- character_reference.rs 26-56, `consume_character_reference`, called with the stream just after a
`&`. -/
def consumeCharacterReference (T : List (Str × Str)) (asAttribute : Bool) (s : St) : St :=
  match s.rest with
  | [] => flush asAttribute s ['&']
  | c :: r =>
    if isAlnum c then named T asAttribute s
    else if c = '#' then numeric asAttribute { s with rest := r }
    else flush asAttribute s ['&']

end Verif.CharRef
