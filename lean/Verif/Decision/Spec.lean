import Verif.Decision.Model

/-!
# Specification vocabulary for C27–C29
-/
namespace Verif.Decision
open Verif

/-! ## Response heads, read independently of the model -/

/-- The first header line called `name` has the value `v`. -/
def Meta.First (m : Meta) (name : String) (v : Bytes) : Prop :=
  ∃ pre post, m.headers = pre ++ (name.toList, v) :: post ∧ ∀ h ∈ pre, h.1 ≠ name.toList

/-- ASCII text as header bytes -/
def ascii (s : String) : Bytes := s.toList.map fun c => UInt8.ofNat c.toNat

/-- the lower case form of an ASCII byte -/
def lowerByte (b : UInt8) : UInt8 := if 65 ≤ b.toNat ∧ b.toNat ≤ 90 then b + 32 else b

/-- The response says `X-Content-Type-Options: nosniff` (in any letter case). -/
def NoSniff (m : Meta) : Prop :=
  ∃ v, m.First "x-content-type-options" v ∧ v.map lowerByte = ascii "nosniff"

/-- The response says `Content-Disposition: attachment…`: after white space, the value starts with
`attachment` in any letter case, and the whole value is printable ASCII. -/
def IsAttachment (m : Meta) : Prop :=
  ∃ ws v rest, m.First "content-disposition" (ws ++ v ++ rest) ∧
    (∀ b ∈ ws, b.toNat = 32 ∨ b.toNat = 9) ∧ v.map lowerByte = ascii "attachment" ∧
    ∀ b ∈ rest, 32 ≤ b.toNat ∧ b.toNat < 127 ∨ b.toNat = 9

/-- The response's first `Content-Type` line parses to `t`. -/
def Declares (e : Ext) (m : Meta) (t : Mime) : Prop :=
  ∃ v, m.First "content-type" v ∧ (∀ b ∈ v, 32 ≤ b.toNat ∧ b.toNat < 127 ∨ b.toNat = 9) ∧
    e.parseMime (v.map fun b => Char.ofNat b.toNat) = some t

/-- The response declares no type the `mime` parser understands. -/
def DeclaresNothing (e : Ext) (m : Meta) : Prop := ∀ t, ¬ Declares e m t

/-- What the `mime` crate guarantees: lower case, no `/` in the type, no `+` in the subtype. -/
def MimesLower (e : Ext) : Prop :=
  ∀ s t, e.parseMime s = some t →
    lower t.typ = t.typ ∧ lower t.sub = t.sub ∧ '/' ∉ t.typ ∧ '+' ∉ t.sub

/-- The declared types the engine trusts, first matching row; `none` stands for any subtype. -/
def trusted : List (String × Option String × Class) :=
  [("text", some "html", .html), ("text", some "css", .css), ("application", some "javascript", .js),
   ("image", none, .image), ("font", none, .font), ("application", some "pdf", .pdf),
   ("application", some "json", .json), ("text", none, .text)]

/-- a row of the table applies to a type -/
def rowApplies (t : Mime) (row : String × Option String × Class) : Bool :=
  decide (t.typ = row.1.toList) && (match row.2.1 with | some s => decide (t.sub = s.toList) | none => true)

/-- the class of a trusted declared type -/
def trustedClass (t : Mime) : Option Class :=
  match trusted.find? (rowApplies t) with
  | some row => some row.2.2
  | none => none

/-- Sniffing takes place. -/
def Sniffs (m : Meta) (p : Policy) : Prop := p.sniffing = true ∧ ¬ NoSniff m

/-- The type a response is resolved to, as an inductive definition:
* a PDF (declared or sniffed) is a PDF when there is a viewer for it;
* otherwise a trusted declared type counts,
* otherwise the sniffed one, if sniffing takes place,
* otherwise it is binary. -/
inductive Resolves (e : Ext) (m : Meta) (peek : Bytes) (p : Policy) : Class → Prop
  | pdfDeclared (t) : p.pdfViewer = true → Declares e m t → trustedClass t = some .pdf →
      Resolves e m peek p .pdf
  | pdfSniffed : p.pdfViewer = true → Sniffs m p → sniffClass e peek = .pdf → Resolves e m peek p .pdf
  | declared (t c) : ¬ (p.pdfViewer = true ∧ Sniffs m p ∧ sniffClass e peek = .pdf) →
      Declares e m t → trustedClass t = some c → Resolves e m peek p c
  | sniffed (c) : (∀ t, Declares e m t → trustedClass t = none) → Sniffs m p → sniffClass e peek = c →
      Resolves e m peek p c
  | binary : (∀ t, Declares e m t → trustedClass t = none) → ¬ Sniffs m p → Resolves e m peek p .binary

/-- The only type each kind of subresource accepts. -/
def accepts : Dest → Option Class
  | .style => some .css
  | .script => some .js
  | .image => some .image
  | .font => some .font
  | _ => none

/-- The result of delivering `body` to a subresource of a kind. -/
def delivered : Dest → Bytes → Routed
  | .style, b => .css b
  | .script, b => .script b
  | .image, b => .image b
  | .font, b => .font b
  | _, _ => .blocked

/-- The head, the peeked bytes and the whole body of a fetch result. -/
inductive Fetched.Has : Fetched → Meta → Bytes → Bytes → Prop
  | stream (m peek body) : Has (.stream m peek body) m peek body
  | buffered (m body) : Has (.buffered m body) m (body.take 5120) body

/-- What kind of thing a response was routed to (forgetting the bytes). -/
inductive Kind
  | page | generatedPage | viewer | css | script | image | font | blocked | download | failed
  deriving DecidableEq

/-- the kind of a routing outcome -/
def Routed.kind : Routed → Kind
  | .mainDocument (.response _) => .page
  | .mainDocument (.generated _) => .generatedPage
  | .viewer _ => .viewer
  | .css _ => .css
  | .script _ => .script
  | .image _ => .image
  | .font _ => .font
  | .blocked => .blocked
  | .downloadOffer _ => .download
  | .failed => .failed

/-- What a top-level navigation does with a response resolved to a class: `viewer` says whether PDFs are
shown, `upgrade` whether mislabelled HTML is shown as HTML and was found, `att` whether it is an
attachment. -/
def documentKind (viewer upgrade att : Bool) : Class → Kind
  | .html | .xhtml | .xml => .page
  | .image | .js | .css | .font => .viewer
  | .pdf => if viewer then .viewer else .download
  | .json | .text => if upgrade then .page else if att then .download else .generatedPage
  | .binary => if upgrade then .page else .download
  | .audio | .video | .unknown => .download

/-! ## Reading a page: a minimal HTML tokenizer

A `<` starts a tag, the next `>` ends it; everything else is text. -/

inductive Tok
  | chr (c : Char)
  | tag (s : Str)
  deriving DecidableEq

mutual
/-- tokenizing outside a tag -/
def lex : Str → List Tok
  | [] => []
  | c :: r => if c = '<' then lexTag [] r else .chr c :: lex r
/-- tokenizing inside a tag whose characters so far are `acc`; an unfinished tag is dropped -/
def lexTag (acc : Str) : Str → List Tok
  | [] => []
  | c :: r => if c = '>' then .tag acc :: lex r else lexTag (acc ++ [c]) r
end

/-- the tags of a page -/
def tagsOf : List Tok → List Str
  | [] => []
  | .tag s :: r => s :: tagsOf r
  | .chr _ :: r => tagsOf r

/-- The text of a page: the characters outside tags with the references `&amp;`, `&lt;`, `&gt;` decoded.
A reference does not extend over a tag. -/
def textOf : List Tok → Str
  | [] => []
  | .chr '&' :: .chr 'a' :: .chr 'm' :: .chr 'p' :: .chr ';' :: r => '&' :: textOf r
  | .chr '&' :: .chr 'l' :: .chr 't' :: .chr ';' :: r => '<' :: textOf r
  | .chr '&' :: .chr 'g' :: .chr 't' :: .chr ';' :: r => '>' :: textOf r
  | .chr c :: r => c :: textOf r
  | .tag _ :: r => textOf r

/-! ## What the JSON viewer should show -/

/-- the text of a number contains nothing but digits, signs, points and exponent letters -/
def numeral (s : Str) : Bool := s.all fun c => c.isDigit || c = '-' || c = '+' || c = '.' || c = 'e' || c = 'E'

mutual
/-- every number in the value is displayed as a numeral (as `serde_json` does) -/
def Json.Wf (v : Json) : Prop :=
  match v with
  | .num s => numeral s = true
  | .arr xs => itemsWf xs
  | .obj ms => membersWf ms
  | _ => True
def itemsWf (xs : List Json) : Prop := match xs with | [] => True | v :: r => v.Wf ∧ itemsWf r
def membersWf (ms : List (Str × Json)) : Prop := match ms with | [] => True | (_, v) :: r => v.Wf ∧ membersWf r
end

/-- a key as it is shown -/
def shownKey : Option Str → Str
  | some k => '"' :: (k ++ "\": ".toList)
  | none => []

mutual
/-- The text the viewer shows for a value: keys and strings verbatim between quotes, brackets and commas. -/
def shown (v : Json) (key : Option Str) (trail : Str) : Str :=
  match v with
  | .null => shownKey key ++ "null".toList ++ trail
  | .bool b => shownKey key ++ (if b then "true" else "false").toList ++ trail
  | .num s => shownKey key ++ s ++ trail
  | .str s => shownKey key ++ '"' :: (s ++ '"' :: trail)
  | .obj ms => shownKey key ++ '{' :: (shownMembers ms ++ '}' :: trail)
  | .arr xs => shownKey key ++ '[' :: (shownItems xs ++ ']' :: trail)
def shownMembers (ms : List (Str × Json)) : Str :=
  match ms with
  | [] => []
  | (k, v) :: r => shown v (some k) (if r.isEmpty then [] else [',']) ++ shownMembers r
def shownItems (xs : List Json) : Str :=
  match xs with
  | [] => []
  | v :: r => shown v none (if r.isEmpty then [] else [',']) ++ shownItems r
end

mutual
/-- the same value with every string, key and number emptied -/
def blank (v : Json) : Json :=
  match v with
  | .num _ => .num []
  | .str _ => .str []
  | .arr xs => .arr (blankItems xs)
  | .obj ms => .obj (blankMembers ms)
  | .null => .null
  | .bool b => .bool b
def blankItems (xs : List Json) : List Json := match xs with | [] => [] | v :: r => blank v :: blankItems r
def blankMembers (ms : List (Str × Json)) : List (Str × Json) :=
  match ms with | [] => [] | (_, v) :: r => ([], blank v) :: blankMembers r
end

end Verif.Decision
