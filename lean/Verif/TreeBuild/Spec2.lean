import Verif.TreeBuild.Spec

/-!
# Specification vocabulary for C106: a document as a tree, its tokens, and the tree in a document

Nothing of the model is used but `Token` and the calls that ask a document (`children`, `dataAt`).
-/
namespace Verif.TreeBuild
open Verif Verif.Dom

/-- a tree as one would write it down: elements of HTML with their attributes, text, and comments -/
inductive Tree
  | elem (name : Str) (attrs : List (Str × Str)) (kids : List Tree)
  | text (v : Str)
  | comment (v : Str)

def names (l : List String) : List Str := l.map String.toList

/-- elements that have no content and no end tag -/
def voids : List Str :=
  names ["area", "base", "basefont", "bgsound", "br", "col", "embed", "hr", "img", "input", "keygen", "link", "meta", "param",
    "source", "track", "wbr"]

/-- elements that have nothing but text in them -/
def texts : List Str := names ["title", "style", "script", "noframes", "iframe", "noembed", "xmp"]

/-- what the tokenizer has to be told about the content of an element: text with character references, a script, or raw text -/
def contentOf (n : Str) : Option Content :=
  if n = "title".toList then some .rcdata
  else if n = "script".toList then some .script
  else if n ∈ texts then some .rawtext
  else none

def asks : Token → Option Content
  | .startTag n _ _ => contentOf n
  | _ => none

mutual
/-- the tokens of a tree: start tag, content, end tag -/
def Tree.tokens : Tree → List Token
  | .elem n as kids => .startTag n false as :: (if n ∈ voids then [] else allTokens kids ++ [.endTag n])
  | .text v => [.text v]
  | .comment v => [.comment v]
/-- the tokens of trees one after the other -/
def allTokens : List Tree → List Token
  | [] => []
  | t :: r => t.tokens ++ allTokens r
end

mutual
/-- the node `i` of the document, with what is below it, is this tree -/
def IsTree (d : Doc) (i : Nat) : Tree → Prop
  | .elem n as kids => (∃ e, dataAt d i = some (.element e) ∧ e.name = n ∧ e.ns = "http://www.w3.org/1999/xhtml".toList ∧
      e.attrs = as) ∧ AreTrees d (children d i) kids
  | .text v => dataAt d i = some (.text v) ∧ children d i = []
  | .comment v => dataAt d i = some (.comment v) ∧ children d i = []
/-- these nodes are these trees, in this order -/
def AreTrees (d : Doc) : List Nat → List Tree → Prop
  | l, [] => l = []
  | l, t :: r => ∃ i l', l = i :: l' ∧ IsTree d i t ∧ AreTrees d l' r
end

/-- what may be in an element -/
inductive Where
  | flow | head | table | rows | cells | columns

/-- elements whose start tag closes an open `p` -/
def closesP : List Str :=
  names ["address", "article", "aside", "blockquote", "center", "details", "dialog", "dir", "div", "dl", "fieldset",
    "figcaption", "figure", "footer", "header", "hgroup", "main", "menu", "nav", "ol", "p", "search", "section", "summary",
    "ul", "h1", "h2", "h3", "h4", "h5", "h6", "form", "li", "dd", "dt", "table", "hr", "xmp"]

def heads : List Str := names ["h1", "h2", "h3", "h4", "h5", "h6"]

/-- elements that are not in flow content, or whose content is of a kind left out here -/
def notFlow : List Str :=
  names ["html", "head", "body", "frameset", "frame", "template", "caption", "colgroup", "tbody", "td", "tfoot", "th", "thead",
    "tr", "table", "pre", "listing", "plaintext", "nobr", "image", "textarea", "select", "option", "optgroup", "noscript", "rb",
    "rtc", "rp", "rt", "math", "svg", "sarcasm"]

/-- An element with content may be here, the elements it is in being `above` (the innermost first): it is not one that would close,
or be kept out by, one of those. -/
structure MayBe (above : List Str) (n : Str) : Prop where
  flow : n ∉ notFlow
  para : n ∈ closesP → "p".toList ∉ above
  heading : n ∈ heads → ∀ q ∈ above.head?, q ∉ heads
  item : n = "li".toList → ∃ q ∈ above.head?, q ∈ names ["ul", "ol", "menu"]
  term : n ∈ names ["dd", "dt"] → above.head? = some "dl".toList
  once : n ∈ names ["a", "button", "form"] → n ∉ above

def Tree.isText : Tree → Bool
  | .text _ => true
  | _ => false

/-- white space -/
def Blank (v : Str) : Prop := ∀ c ∈ v, c ∈ [' ', '\t', '\n', '\x0C', '\r']

/-- the elements of the head -/
def inTheHead : List Str :=
  names ["base", "basefont", "bgsound", "link", "meta", "title", "style", "script", "noframes"]

/-- nothing, or a text -/
def OnlyText (kids : List Tree) : Prop := kids = [] ∨ ∃ v, v ≠ [] ∧ kids = [.text v]

mutual
/-- The tree may be written here as it is: the standard's rules for where elements may be, as far as the parser depends on them. -/
def Fits (w : Where) (above : List Str) : Tree → Prop
  | .comment _ => True
  | .text v => v ≠ [] ∧ match w with
    | .flow => Char.ofNat 0 ∉ v
    | .head => Blank v
    | _ => False
  | .elem n _ kids => match w with
    | .flow =>
      (n ∈ voids ∧ n ≠ "col".toList ∧ kids = [] ∧ (n ∈ closesP → "p".toList ∉ above)) ∨
      (n ∈ texts ∧ OnlyText kids ∧ (n ∈ closesP → "p".toList ∉ above)) ∨
      (n = "table".toList ∧ "p".toList ∉ above ∧ AllFit .table (n :: above) kids) ∨
      (n ∉ voids ∧ n ∉ texts ∧ MayBe above n ∧ AllFit .flow (n :: above) kids)
    | .head => n ∈ inTheHead ∧ ((n ∈ voids ∧ kids = []) ∨ (n ∈ texts ∧ OnlyText kids))
    | .table =>
      (n = "caption".toList ∧ AllFit .flow (n :: above) kids) ∨
      (n = "colgroup".toList ∧ AllFit .columns (n :: above) kids) ∨
      (n ∈ names ["thead", "tbody", "tfoot"] ∧ AllFit .rows (n :: above) kids)
    | .rows => n = "tr".toList ∧ AllFit .cells (n :: above) kids
    | .cells => n ∈ names ["td", "th"] ∧ AllFit .flow (n :: above) kids
    | .columns => n = "col".toList ∧ kids = []
/-- and so may these, one after the other: of two neighbours one at most is a text -/
def AllFit (w : Where) (above : List Str) : List Tree → Prop
  | [] => True
  | t :: r => Fits w above t ∧ AllFit w above r ∧ ∀ u ∈ r.head?, ¬ (t.isText = true ∧ u.isText = true)
end

/-- a whole page: what its DOCTYPE says if it has one, and its head and body -/
structure Page where
  doctype : Option (Option Str × Bool × Option Str × Option Str)
  attrs : List (Str × Str)
  headAttrs : List (Str × Str)
  head : List Tree
  bodyAttrs : List (Str × Str)
  body : List Tree

def Page.fits (P : Page) : Prop :=
  AllFit .head (names ["head", "html"]) P.head ∧ AllFit .flow (names ["body", "html"]) P.body

/-- its root element as a tree -/
def Page.root (P : Page) : Tree :=
  .elem "html".toList P.attrs [.elem "head".toList P.headAttrs P.head, .elem "body".toList P.bodyAttrs P.body]

def Page.tokens (P : Page) : List Token :=
  (match P.doctype with
    | some (n, q, p, y) => [.doctype n q p y]
    | none => []) ++ P.root.tokens

/-- the document is this page: under the document node there are the DOCTYPE, if any, and the root element -/
def IsPage (d : Doc) (P : Page) : Prop :=
  dataAt d 0 = some .document ∧ match P.doctype with
  | some (n, _, p, y) => ∃ i j, children d 0 = [i, j] ∧
      dataAt d i = some (.doctype (n.getD []) (p.getD []) (y.getD [])) ∧ children d i = [] ∧ IsTree d j P.root
  | none => AreTrees d (children d 0) [P.root]

end Verif.TreeBuild
