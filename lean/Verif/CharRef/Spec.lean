import Verif.CharRef.Model

/-!
# What a character reference means

The HTML rules for the text after a `&`, written as a relation, without any of the model's loops or
tables.
-/
namespace Verif.CharRef

/-- the ten decimal digits -/
def DecDigit (c : Char) : Prop := c ∈ "0123456789".toList
/-- the hexadecimal digits, either case -/
def HexDigit (c : Char) : Prop := c ∈ "0123456789abcdefABCDEF".toList
/-- ASCII letters and digits -/
def AlphaNum (c : Char) : Prop :=
  c ∈ "0123456789abcdefghijklmnopqrstuvwxyzABCDEFGHIJKLMNOPQRSTUVWXYZ".toList

/-- what one digit is worth: its place among the digits, letters in either case -/
def digitValue (c : Char) : Nat :=
  if c ∈ "ABCDEF".toList then 10 + "ABCDEF".toList.idxOf c else "0123456789abcdef".toList.idxOf c

/-- the number a digit string denotes -/
def value (radix : Nat) (ds : Str) : Nat := ds.foldl (fun n d => n * radix + digitValue d) 0

/-- the Windows-1252 reading of the code points 128 to 159, where there is one -/
def windows1252 : List (Nat × Char) := [
  (128, '€'), (130, '‚'), (131, 'ƒ'), (132, '„'), (133, '…'), (134, '†'), (135, '‡'), (136, 'ˆ'),
  (137, '‰'), (138, 'Š'), (139, '‹'), (140, 'Œ'), (142, 'Ž'), (145, '‘'), (146, '’'), (147, '“'),
  (148, '”'), (149, '•'), (150, '–'), (151, '—'), (152, '˜'), (153, '™'), (154, 'š'), (155, '›'),
  (156, 'œ'), (158, 'ž'), (159, 'Ÿ')]

/-- `n` stands for the character `c`: the replacement character for zero, for surrogates and for
numbers beyond Unicode; the Windows-1252 character where there is one; otherwise the character with
that number. -/
inductive Denotes : Nat → Char → Prop
  | zero : Denotes 0 '�'
  | surrogate {n : Nat} : 55296 ≤ n → n ≤ 57343 → Denotes n '�'
  | beyond {n : Nat} : 1114111 < n → Denotes n '�'
  | windows {n : Nat} {c : Char} : (n, c) ∈ windows1252 → Denotes n c
  | plain {c : Char} : c.toNat ≠ 0 → (∀ d, (c.toNat, d) ∉ windows1252) → Denotes c.toNat c

/-- `r` does not start with a character satisfying `P` -/
def NotNext (P : Char → Prop) (r : Str) : Prop := ∀ c, r.head? = some c → ¬ P c

/-- `r` without one leading semicolon -/
def dropSemi : Str → Str
  | ';' :: r => r
  | r => r

/-- `name` is the longest name of the table with which the text starts, and `v` what it stands for -/
def Longest (T : List (Str × Str)) (text name v : Str) : Prop :=
  Map.look T name = some v ∧ name <+: text ∧
  ∀ name' v', (name', v') ∈ T → name' <+: text → name'.length ≤ name.length

/-- the historical exception: in an attribute a name without `;` followed by `=`, a letter or a
digit is not a reference -/
def Exempt (attr : Bool) (name r : Str) : Prop :=
  attr = true ∧ ¬ [';'] <:+ name ∧ ∃ c, r.head? = some c ∧ (c = '=' ∨ AlphaNum c)

/-- `Ref T attr text out r`: after a `&`, `text` makes the output `out` and leaves `r` unread. -/
inductive Ref (T : List (Str × Str)) (attr : Bool) : Str → Str → Str → Prop
  | decimal {ds r : Str} {c : Char} : ds ≠ [] → (∀ d ∈ ds, DecDigit d) → NotNext DecDigit r →
      Denotes (value 10 ds) c → Ref T attr ('#' :: (ds ++ r)) [c] (dropSemi r)
  | hexadecimal {x : Char} {ds r : Str} {c : Char} : (x = 'x' ∨ x = 'X') → ds ≠ [] →
      (∀ d ∈ ds, HexDigit d) → NotNext HexDigit r → Denotes (value 16 ds) c →
      Ref T attr ('#' :: x :: (ds ++ r)) [c] (dropSemi r)
  | noDigits {r : Str} : NotNext (fun c => DecDigit c ∨ c = 'x' ∨ c = 'X') r →
      Ref T attr ('#' :: r) ['&', '#'] r
  | noHexDigits {x : Char} {r : Str} : (x = 'x' ∨ x = 'X') → NotNext HexDigit r →
      Ref T attr ('#' :: x :: r) ['&', '#', x] r
  | named {name r v : Str} : Longest T (name ++ r) name v → ¬ Exempt attr name r →
      Ref T attr (name ++ r) v r
  | exempt {name r v : Str} : Longest T (name ++ r) name v → Exempt attr name r →
      Ref T attr (name ++ r) ('&' :: name) r
  | unknown {run r : Str} : run ≠ [] → (∀ c ∈ run, AlphaNum c) → NotNext AlphaNum r →
      (∀ name v, (name, v) ∈ T → ¬ name <+: run ++ r) → Ref T attr (run ++ r) ('&' :: run) r
  | literal {text : Str} : NotNext (fun c => AlphaNum c ∨ c = '#') text → Ref T attr text ['&'] text

/-- what the table must look like: names are ASCII letters and digits, perhaps with a final `;`, and
none contains the word `StreamEnd` -/
structure TableOk (T : List (Str × Str)) : Prop where
  shape : ∀ name v, (name, v) ∈ T →
    ∃ run : Str, run ≠ [] ∧ (∀ c ∈ run, AlphaNum c) ∧ (name = run ∨ name = run ++ [';'])
  noMarker : ∀ name v, (name, v) ∈ T → ¬ "StreamEnd".toList <:+: name

/-- `s'` is `s` after reading up to `r` and appending `out` to the attribute value or to the text -/
def Emitted (attr : Bool) (s s' : St) (out r : Str) : Prop :=
  s'.rest = r ∧
  s'.attrValue = (if attr then s.attrValue ++ out else s.attrValue) ∧
  s'.consumed = (if attr then s.consumed else s.consumed ++ out)

end Verif.CharRef
