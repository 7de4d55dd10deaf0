import Verif.Dom.Model
import Verif.HtmlTok.Model

/-!
# Model of the HTML tree builder

Files modelled (in /repo/crates/gosub_html5/src): `parser.rs`, `parser/helper.rs`, `tokenizer/token.rs` (the predicates),
`node/elements.rs`, `parser/attr_replacements.rs` (the tag names).

Every change of the document is a call of `Verif.Dom.step`.  The stack of open elements and the list of active formatting
elements are kept with the newest entry first (the code pushes at the end).  The flag `reprocess_token` is what a handler returns
(`Next`).  A panic, an index out of range and a loop that does not come to an end are the result `none`.

Not modelled: parse errors and locations; style sheets and links (`load_inline_stylesheet`, `handle_link_element`); the character
encoding a `meta` element asks for; the flags `ack_self_closing`, `script_already_started`, `script_nesting_level`,
`parser_pause_flag` and `insertion_point`, which nothing reads; the adjusted names of foreign attributes and the choice of quirks
mode are parameters.
-/
namespace Verif.TreeBuild
open Verif Verif.Dom

/-- `tokenizer/token.rs:14-43` as in the model of the tokenizer -/
abbrev Token := HtmlTok.Token
abbrev Content := HtmlTok.Content

/-- attributes of a tag -/
abbrev Attrs := List (Str × Str)

/-- the name is this one -/
def is (n : Str) (k : String) : Bool := decide (n = k.toList)

/-- the name is one of these -/
def oneOf (n : Str) (l : List String) : Bool := l.any fun k => is n k

/-- node.rs 1 -/
def htmlNs : Str := "http://www.w3.org/1999/xhtml".toList
/-- node.rs 2 -/
def mathNs : Str := "http://www.w3.org/1998/Math/MathML".toList
/-- node.rs 3 -/
def svgNs : Str := "http://www.w3.org/2000/svg".toList

/-- parser.rs 46-70 -/
inductive Mode
  | initial | beforeHtml | beforeHead | inHead | inHeadNoscript | afterHead | inBody | text | inTable | inTableText
  | inCaption | inColumnGroup | inTableBody | inRow | inCell | inSelect | inSelectInTable | inTemplate | afterBody
  | inFrameset | afterFrameset | afterAfterBody | afterAfterFrameset
  deriving DecidableEq, Repr

/-- What the model does not fix: whether scripting is enabled (parser.rs 112-114), whether the document is an `iframe`'s `srcdoc`
(parser.rs 1749-1751), the choice of quirks mode (`parser/quirks.rs`), the adjusted attributes of MathML, SVG and foreign elements
(parser.rs 3673-3723), and `str::to_lowercase` (parser.rs 643) -/
structure Env where
  scripting : Bool
  srcdoc : Bool
  quirks : Option Str → Option Str → Option Str → Bool → Bool
  mathAttrs : Attrs → Attrs
  svgAttrs : Attrs → Attrs
  foreignAttrs : Attrs → Attrs
  lowered : Str → Str

/-- parser.rs 132-190: the parser with its document.  `opened` is `open_elements` and `active` is `active_formatting_elements`
(`none` is a marker), newest first; `context` is the context node of a fragment; `queue` holds the tokens put back; `switch` is the
state a handler has put the tokenizer in. -/
structure St where
  doc : Doc
  quirks : Bool
  mode : Mode
  original : Mode
  templateModes : List Mode
  opened : List Nat
  active : List (Option Nat)
  head : Option Nat
  form : Option Nat
  framesetOk : Bool
  foster : Bool
  ignoreLf : Bool
  pending : Str
  context : Option Nat
  queue : List Token
  switch : Option Content
  finished : Bool

/-- an action of the parser: a result and a new state, or `none` if it panics or does not come to an end -/
def M (α : Type) := St → Option (α × St)

instance : Monad M where
  pure a := fun s => some (a, s)
  bind m f := fun s => (m s).bind fun r => f r.1 r.2

/-- a change of the state -/
def upd (f : St → St) : M Unit := fun s => some ((), f s)

/-- asking the state -/
def ask {α : Type} (f : St → α) : M α := fun s => some (f s, s)

/-- a choice that depends on the state -/
def ifM {α : Type} (c : St → Bool) (a b : M α) : M α := fun s => if c s then a s else b s

/-- an action done only in some states -/
def whenM (c : St → Bool) (a : M Unit) : M Unit := ifM c a (pure ())

/-- What becomes of the token: it has been dealt with, or `reprocess_token` is set, or it is set and the token is replaced
(parser.rs 1736-1742, 2816-2833). -/
inductive Next
  | done
  | again
  | other (t : Token)
  deriving DecidableEq

/-! ## Asking the document -/

/-- the element data of a node -/
def elem (d : Doc) (i : Nat) : Option Elem := (nodeAt d i).bind elemOf

/-- document_impl.rs 169-174 with `unwrap_or_default` -/
def tag (d : Doc) (i : Nat) : Str := ((elem d i).map (·.name)).getD []

/-- document_impl.rs 176-181 -/
def ns (d : Doc) (i : Nat) : Option Str := (elem d i).map (·.ns)

/-- the node is an element of the HTML namespace -/
def isHtml (d : Doc) (i : Nat) : Bool := decide (ns d i = some htmlNs)

/-- document_impl.rs 190-195 -/
def attrs (d : Doc) (i : Nat) : Option Attrs := (elem d i).map (·.attrs)

/-- document_impl.rs 245-250 -/
def contents (d : Doc) (i : Nat) : Option Nat := (elem d i).bind (·.template)

/-- node/elements.rs 7-91 -/
def specialHtml : List String :=
  ["address", "applet", "area", "article", "aside", "base", "basefont", "bgsound", "blockquote", "body", "br", "button",
   "caption", "center", "col", "colgroup", "dd", "details", "dir", "div", "dl", "dt", "embed", "fieldset", "figcaption",
   "figure", "footer", "form", "frame", "frameset", "h1", "h2", "h3", "h4", "h5", "h6", "head", "header", "hgroup", "hr",
   "html", "iframe", "img", "input", "keygen", "li", "link", "listing", "main", "marquee", "menu", "meta", "nav", "noembed",
   "noframes", "noscript", "object", "ol", "p", "param", "plaintext", "pre", "script", "search", "section", "select",
   "source", "style", "summary", "table", "tbody", "td", "template", "textarea", "tfoot", "th", "thead", "title", "tr",
   "track", "ul", "wbr", "xmp"]

/-- node/elements.rs 94 -/
def specialMath : List String := ["mi", "mo", "mn", "ms", "mtext", "annotation-xml"]

/-- node/elements.rs 97 -/
def specialSvg : List String := ["foreignObject", "desc", "title"]

/-- helper.rs 27-37 -/
def isSpecial (d : Doc) (i : Nat) : Bool :=
  match ns d i with
  | some n =>
    if n = htmlNs then oneOf (tag d i) specialHtml
    else if n = mathNs then oneOf (tag d i) specialMath
    else if n = svgNs then oneOf (tag d i) specialSvg
    else false
  | none => oneOf (tag d i) specialHtml

/-- helper.rs 40-44 -/
def mathPoint (d : Doc) (i : Nat) : Bool :=
  decide (ns d i = some mathNs) && oneOf (tag d i) ["mi", "mo", "mn", "ms", "mtext"]

/-- helper.rs 47-55 -/
def htmlPoint (d : Doc) (i : Nat) : Bool :=
  if decide (ns d i = some mathNs) && is (tag d i) "annotation-xml" then
    let e := (Dom.attr d i "encoding".toList).getD []
    eqIgnoreCase e "text/html".toList || eqIgnoreCase e "application/xhtml+xml".toList
  else decide (ns d i = some svgNs) && oneOf (tag d i) ["foreignObject", "desc", "title"]

/-- two hash maps are equal -/
def sameMap (a b : Attrs) : Bool :=
  a.all (fun kv => decide (Map.look b kv.1 = Map.look a kv.1)) && b.all fun kv => decide (Map.look a kv.1 = Map.look b kv.1)

/-- helper.rs 59-71 -/
def sameElement (d : Doc) (a b : Nat) : Bool :=
  decide ((elem d a).map (·.name) = (elem d b).map (·.name)) && decide (ns d a = ns d b) &&
    match attrs d a, attrs d b with
    | some x, some y => sameMap x y
    | none, none => true
    | _, _ => false

/-! ## Text -/

/-- `char::is_ascii_whitespace` -/
def isWhite (c : Char) : Bool := decide (c ∈ [' ', '\t', '\n', '\x0c', '\r'])

/-- the null character -/
def nul : Char := Char.ofNat 0

/-- token.rs 47-65 -/
def isMixed (v : Str) : Bool :=
  let w := v.any isWhite
  let z := v.any fun c => decide (c = nul)
  let r := v.any fun c => !isWhite c && decide (c ≠ nul)
  decide ((if w then 1 else 0) + (if z then 1 else 0) + (if r then 1 else 0) > 1)

/-- token.rs 68-75 -/
def isMixedNull (v : Str) : Bool := v.any (fun c => decide (c = nul)) && v.any fun c => decide (c ≠ nul)

/-- token.rs 102-110 -/
def isNull (v : Str) : Bool := v.any fun c => decide (c = nul)

/-- token.rs 119-131 -/
def isBlank (v : Str) : Bool := v.all isWhite

/-- the groups of parser.rs 3993-4003 -/
inductive Group
  | zero | white | rest
  deriving DecidableEq

/-- parser.rs 3994-4002 -/
def group (c : Char) : Group := if c = nul then .zero else if isWhite c then .white else .rest

/-- parser.rs 4007 -/
def groupNull (c : Char) : Group := if c = nul then .zero else .rest

/-- the loop of parser.rs 4020-4040: the last group and the characters found so far (in order) -/
def splitLoop (g : Char → Group) : Option Group → Str → Str → List Str
  | _, found, [] => if found = [] then [] else [found]
  | last, found, c :: r =>
    if last ≠ some (g c) ∧ found ≠ [] then found :: splitLoop g (some (g c)) [c] r
    else splitLoop g (some (g c)) (found ++ [c]) r

/-- parser.rs 3993-4003 -/
def splitMixed (v : Str) : List Token := (splitLoop group none [] v).map .text

/-- parser.rs 4006-4008 -/
def splitNull (v : Str) : List Token := (splitLoop groupNull none [] v).map .text

/-- tokenizer.rs 63-68, `insert_tokens_at_queue_start` -/
def putBack (l : List Token) : M Unit := upd fun s => { s with queue := l ++ s.queue }

/-! ## The stack of open elements -/

/-- `current_node_id!`, parser.rs 73-77 -/
def current (s : St) : Nat := s.opened.head?.getD 0

/-- the tag name of the current node -/
def curTag (s : St) : Str := tag s.doc (current s)

/-- `open_elements.pop()` -/
def pop : M Unit := upd fun s => { s with opened := s.opened.tail }

/-- popping up to and including the first node of a kind -/
def popTo (p : Nat → Bool) : List Nat → List Nat
  | [] => []
  | x :: r => if p x then r else popTo p r

/-- parser.rs 1765-1779 -/
def popNamed (n : Str) : M Unit :=
  upd fun s => { s with opened := popTo (fun i => decide (tag s.doc i = n) && isHtml s.doc i) s.opened }

/-- parser.rs 1799-1809 -/
def popAny (l : List String) : M Unit := upd fun s => { s with opened := popTo (fun i => oneOf (tag s.doc i) l) s.opened }

/-- parser.rs 1812-1814 -/
def removeOpen (n : Nat) : M Unit := upd fun s => { s with opened := s.opened.filter fun i => decide (i ≠ n) }

/-- parser.rs 1830-1835 -/
def hasOpen (n : String) (s : St) : Bool := s.opened.any fun i => is (tag s.doc i) n

/-- parser.rs 1932 -/
def impliedTags : List String := ["dd", "dt", "li", "option", "optgroup", "p", "rb", "rp", "rt", "rtc"]

/-- parser.rs 1923-1926 -/
def impliedThorough : List String :=
  ["caption", "colgroup", "tbody", "td", "tfoot", "th", "thead", "tr", "dd", "dt", "li", "option", "optgroup", "p", "rb",
   "rp", "rt", "rtc"]

/-- parser.rs 1917-1936: an element whose end tag is implied -/
def isImplied (d : Doc) (except : Option Str) (thoroughly : Bool) (i : Nat) : Bool :=
  isHtml d i && !decide (except = some (tag d i)) && oneOf (tag d i) (if thoroughly then impliedThorough else impliedTags)

/-- parser.rs 1908-1940 -/
def implied (except : Option Str) (thoroughly : Bool) : M Unit :=
  upd fun s => { s with opened := s.opened.dropWhile (isImplied s.doc except thoroughly) }

/-- parser.rs 1971-1991: the ancestors of a `select` -/
def selectMode (d : Doc) : List Nat → Mode
  | [] => .inSelect
  | x :: r => if is (tag d x) "template" then .inSelect else if is (tag d x) "table" then .inSelectInTable else selectMode d r

/-- parser.rs 1964-2047: the mode for a node, if it decides it; `last` is the flag, `below` is the rest of the stack -/
def modeFor (s : St) (last : Bool) (n : Nat) (below : List Nat) : Option Mode :=
  let t := tag s.doc n
  if is t "select" then some (if last then .inSelect else selectMode s.doc below)
  else if oneOf t ["td", "th"] && !last then some .inCell
  else if is t "tr" then some .inRow
  else if oneOf t ["tbody", "thead", "tfoot"] then some .inTableBody
  else if is t "caption" then some .inCaption
  else if is t "colgroup" then some .inColumnGroup
  else if is t "table" then some .inTable
  else if is t "template" then some (s.templateModes.head?.getD .inTemplate)
  else if is t "head" && !last then some .inHead
  else if is t "body" then some .inBody
  else if is t "frameset" then some .inFrameset
  else if is t "html" then some (if s.head.isNone then .beforeHead else .afterHead)
  else none

/-- the loop of parser.rs 1952-2056 -/
def resetMode (s : St) : List Nat → Mode
  | [] => .inBody
  | [x] => (modeFor s true (s.context.getD x) []).getD .inBody
  | x :: y :: r => match modeFor s false x (y :: r) with
    | some m => m
    | none => resetMode s (y :: r)

/-- parser.rs 1943-2057 -/
def reset : M Unit := upd fun s => { s with mode := resetMode s s.opened }

/-- parser.rs 2060-2067, 2070-2077, 2080-2088 -/
def clearTo (l : List String) : M Unit :=
  upd fun s => { s with opened := s.opened.dropWhile fun i => !oneOf (tag s.doc i) l }

/-- parser.rs 2060-2067 -/
def clearToTable : M Unit := clearTo ["table", "template", "html"]
/-- parser.rs 2070-2077 -/
def clearToBody : M Unit := clearTo ["tbody", "tfoot", "thead", "template", "html"]
/-- parser.rs 2080-2088 -/
def clearToRow : M Unit := clearTo ["tr", "template", "html"]

/-- parser.rs 211-218 -/
inductive Scope
  | regular | listItem | button | table | select
  deriving DecidableEq

/-- the elements that end a scope, parser.rs 2104-2145 -/
def scopeEnds (d : Doc) (sc : Scope) (i : Nat) : Bool :=
  let t := tag d i
  let n := (ns d i).getD htmlNs
  let usual := decide (n = mathNs) && oneOf t ["mo", "mi", "ms", "mn", "mtext", "annotation-xml"] ||
    decide (n = svgNs) && oneOf t ["foreignObject", "desc", "title"]
  let default := oneOf t ["applet", "caption", "html", "table", "td", "th", "marquee", "object", "template"]
  match sc with
  | .regular => decide (n = htmlNs) && default || usual
  | .listItem => decide (n = htmlNs) && (default || oneOf t ["ol", "ul"]) || usual
  | .button => decide (n = htmlNs) && (default || is t "button") || usual
  | .table => decide (n = htmlNs) && oneOf t ["html", "template", "table"]
  | .select => !(decide (n = htmlNs) && oneOf t ["optgroup", "option"])

/-- the loop of parser.rs 2092-2148, for the HTML namespace -/
def inScopeOf (d : Doc) (t : Str) (sc : Scope) : List Nat → Bool
  | [] => false
  | x :: r =>
    if (elem d x).isNone then false
    else if decide (tag d x = t) && isHtml d x then true
    else if scopeEnds d sc x then false
    else inScopeOf d t sc r

/-- parser.rs 2091-2149 -/
def inScope (t : Str) (sc : Scope) (s : St) : Bool := inScopeOf s.doc t sc s.opened

/-- the same for a fixed name -/
def inScopeS (t : String) (sc : Scope) (s : St) : Bool := inScope t.toList sc s

/-! ## Inserting nodes -/

/-- a call of the document -/
def dom (o : Op) : M Nat := fun s => (Dom.step s.doc o).map fun r => (r.2.getD 0, { s with doc := r.1 })

/-- helper.rs 13-16 -/
inductive Place
  | lastChild (parent : Nat)
  | before (parent sibling : Nat)

/-- helper.rs 266-292: the place for a foster-parented node -/
def fosterPlace (d : Doc) (first : Nat) : List Nat → Place
  | [] => .lastChild first
  | x :: r =>
    if is (tag d x) "template" then
      match contents d x with
      | some c => .lastChild c
      | none => fosterPlace d first r
    else if is (tag d x) "table" then
      match Dom.parent d x with
      | some p => .before p x
      | none => match r with
        | y :: _ => .lastChild y
        | [] => .lastChild first
    else fosterPlace d first r

/-- helper.rs 246-293 -/
def placeFor (s : St) (override : Option Nat) : Place :=
  let target := override.getD (current s)
  let foster := fosterPlace s.doc (s.opened.getLast?.getD 0) s.opened
  if s.foster && oneOf (tag s.doc target) ["table", "tbody", "thead", "tfoot", "tr"] then foster
  else if is (tag s.doc target) "template" && isHtml s.doc target then
    match contents s.doc target with
    | some c => .lastChild c
    | none => foster
  else .lastChild target

/-- where a node is among the children of another -/
def childIndex (d : Doc) (p c : Nat) : Option Nat := (children d p).findIdx? fun x => decide (x = c)

/-- helper.rs 118-128 -/
def insertAt (n : Nat) (pl : Place) : M Unit :=
  match pl with
  | .before p b => fun s => (dom (.attach n p (childIndex s.doc p b)) s).map fun r => ((), r.2)
  | .lastChild p => fun s => (dom (.attach n p none) s).map fun r => ((), r.2)

/-- inserting a node at the appropriate place, as in helper.rs 198-199, 226-227, 450-451 -/
def insertHere (n : Nat) (override : Option Nat) : M Unit := fun s => insertAt n (placeFor s override) s

/-- `open_elements.push` -/
def push (n : Nat) : M Unit := upd fun s => { s with opened := n :: s.opened }

/-- parser.rs 1868-1904 and helper.rs 182-206, 174-180 for a start or end tag: the element is created, inserted and pushed -/
def insertElement (name namesp : Str) (as : Attrs) : M Nat := do
  let n ← dom (.createElement name namesp as)
  insertHere n none
  push n
  pure n

/-- helper.rs 174-176 -/
def insertHtml (name : Str) (as : Attrs) : M Nat := insertElement name htmlNs as

/-- inserting an element for a made-up tag -/
def insertMade (name : String) : M Nat := insertHtml name.toList []

/-- helper.rs 174-176 where the result is not used -/
def insert_ (name : Str) (as : Attrs) : M Unit := do
  let _ ← insertHtml name as
  pure ()

/-- inserting an element and popping it off the stack at once -/
def insertVoid (name : Str) (as : Attrs) : M Unit := do
  insert_ name as
  pop

/-- helper.rs 192-195 -/
def insertClone (n : Nat) : M Nat := do
  let c ← dom (.clone n)
  insertHere c none
  push c
  pure c

/-- helper.rs 208-211 -/
def insertDoctype (name : Option Str) (pub sys : Option Str) : M Unit := do
  let n ← dom (.createDoctype (name.getD []) (pub.getD []) (sys.getD []))
  insertAt n (.lastChild 0)

/-- helper.rs 213-217 -/
def insertRoot (as : Attrs) : M Unit := do
  let n ← dom (.createElement "html".toList htmlNs as)
  insertAt n (.lastChild 0)
  push n

/-- helper.rs 219-228, at the appropriate place -/
def insertComment (v : Str) : M Unit := do
  let n ← dom (.createComment v)
  insertHere n none

/-- helper.rs 219-224, under a given node -/
def insertCommentIn (v : Str) (p : Nat) : M Unit := do
  let n ← dom (.createComment v)
  insertAt n (.lastChild p)

/-- document_impl.rs 279-291: whether text can be appended to the node -/
def isText (d : Doc) (i : Nat) : Bool :=
  match nodeAt d i with
  | some ⟨_, _, .text _⟩ => true
  | _ => false

/-- a new text node at an index -/
def newText (v : Str) (p : Nat) (pos : Option Nat) : M Unit := do
  let n ← dom (.createText v)
  let _ ← dom (.attach n p pos)
  pure ()

/-- the text goes into this text node, or else a new one is made -/
def mergeText (v : Str) (old : Option Nat) (p : Nat) (pos : Option Nat) : M Unit := fun s =>
  match old with
  | some i => if isText s.doc i then (dom (.appendText i v) s).map fun r => ((), r.2) else newText v p pos s
  | none => newText v p pos s

/-- helper.rs 130-172; `children[index - 1]` is out of range only if `index` is 0 -/
def insertTextAt (v : Str) (pl : Place) : M Unit :=
  match pl with
  | .before p b => fun s =>
    match childIndex s.doc p b with
    | some (i + 1) => match (children s.doc p)[i]? with
      | some l => mergeText v (some l) p (some (i + 1)) s
      | none => none
    | pos => newText v p pos s
  | .lastChild p => fun s => mergeText v ((children s.doc p).getLast?) p none s

/-- helper.rs 230-239 -/
def insertText (v : Str) : M Unit := fun s => if v = [] then some ((), s) else insertTextAt v (placeFor s none) s

/-- parser.rs 2209-2213, 2254-2258: attributes the element does not have yet -/
def addMissing (n : Nat) : Attrs → M Unit
  | [] => pure ()
  | (k, v) :: r => do
    whenM (fun s => (Dom.attr s.doc n k).isNone) (do let _ ← dom (.setAttribute n k v); pure ())
    addMissing n r

/-- adding attributes to a node if it is an element -/
def addAttrs (n : Nat) (as : Attrs) : M Unit := whenM (fun s => isElement s.doc n) (addMissing n as)

/-! ## Active formatting elements -/

/-- parser.rs 3526-3549 -/
def formattingNamed (d : Doc) (t : String) : List (Option Nat) → Option Nat
  | some i :: r => if is (tag d i) t then some i else formattingNamed d t r
  | _ => none

/-- parser.rs 3552-3554 -/
def pushMarker : M Unit := upd fun s => { s with active := none :: s.active }

/-- up to the first marker, which goes too -/
def afterMarker : List (Option Nat) → List (Option Nat)
  | [] => []
  | none :: r => r
  | some _ :: r => afterMarker r

/-- parser.rs 3557-3564 -/
def clearMarker : M Unit := upd fun s => { s with active := afterMarker s.active }

/-- parser.rs 3567-3572 -/
def removeActive (n : Nat) : M Unit := upd fun s => { s with active := s.active.filter fun e => decide (e ≠ some n) }

/-- the loop of parser.rs 3579-3592: the third entry like this one, before a marker -/
def thirdLike (d : Doc) (n : Nat) : Nat → List (Option Nat) → Option Nat
  | k, some i :: r =>
    if sameElement d n i then (if k ≥ 2 then some i else thirdLike d n (k + 1) r) else thirdLike d n k r
  | _, _ => none

/-- parser.rs 3575-3599 -/
def pushActive (n : Nat) : M Unit := upd fun s =>
  let rest := match thirdLike s.doc n 0 s.active with
    | some i => s.active.filter fun e => decide (e ≠ some i)
    | none => s.active
  { s with active := some n :: rest }

/-- the entries that parser.rs 3606-3636 goes back over: neither markers nor open -/
def closedActive (opened : List Nat) : List (Option Nat) → List Nat
  | some i :: r => if i ∈ opened then [] else i :: closedActive opened r
  | _ => []

/-- the loop of parser.rs 3638-3654: clones of these nodes, oldest first; the new list of entries, newest first -/
def cloneAll : List Nat → List (Option Nat) → M (List (Option Nat))
  | [], acc => pure acc
  | n :: r, acc => do
    let c ← insertClone n
    cloneAll r (some c :: acc)

/-- parser.rs 3601-3655 -/
def reconstruct : M Unit := fun s =>
  let l := closedActive s.opened s.active
  ((do
    let new ← cloneAll l.reverse []
    upd fun s' => { s' with active := new ++ s'.active.drop l.length }) : M Unit) s

/-! ## Closing elements -/

/-- parser.rs 3662-3670 -/
def closeP : M Unit := do
  implied (some "p".toList) false
  popNamed "p".toList

/-- parser.rs 2348-2350 and the like -/
def closePInScope : M Unit := whenM (inScopeS "p" .button) closeP

/-- setting the insertion mode -/
def setMode (m : Mode) : M Unit := upd fun s => { s with mode := m }

/-- `frameset_ok = false` -/
def noFrameset : M Unit := upd fun s => { s with framesetOk := false }

/-- parser.rs 2152-2166 -/
def closeCell : M Unit := do
  implied none false
  popAny ["td", "th"]
  clearMarker
  setMode .inRow

/-- parser.rs 3810-3814: `while current_node_id != node_id` pop, then pop once more; it does not end if the node is not there -/
def popNode (n : Nat) : List Nat → Option (List Nat)
  | [] => none
  | x :: r => if x = n then some r else popNode n r

/-- the loop of parser.rs 3797-3824 over the entries of the stack -/
def endTagLoop (t : Str) : List Nat → M Unit
  | [] => pure ()
  | x :: r => fun s =>
    if tag s.doc x = t then
      (implied (some t) false s).bind fun p => (popNode x p.2.opened).map fun l => ((), { p.2 with opened := l })
    else if isSpecial s.doc x then some ((), s)
    else endTagLoop t r s

/-- parser.rs 3790-3825 -/
def otherEndTag (t : Str) : M Unit := fun s => endTagLoop t s.opened s

/-- setting the original mode and going to the text mode, with a state for the tokenizer: parser.rs 3729-3732, 3739-3742, 2839-2842,
3075-3077 -/
def textMode (c : Content) : M Unit := upd fun s => { s with switch := some c, original := s.mode, mode := .text }

/-- parser.rs 3726-3733 -/
def rawData (name : Str) (as : Attrs) : M Unit := do
  insert_ name as
  textMode .rawtext

/-- parser.rs 3736-3743 -/
def rcData (name : Str) (as : Attrs) : M Unit := do
  insert_ name as
  textMode .rcdata

/-! ## The adoption agency: here the lists are in the order of the code, oldest first -/

/-- `active_formatting_elements` as the code has it -/
def activeVec (s : St) : List (Option Nat) := s.active.reverse
/-- `open_elements` as the code has it -/
def openVec (s : St) : List Nat := s.opened.reverse
/-- storing `active_formatting_elements` -/
def setActiveVec (l : List (Option Nat)) : M Unit := upd fun s => { s with active := l.reverse }
/-- storing `open_elements` -/
def setOpenVec (l : List Nat) : M Unit := upd fun s => { s with opened := l.reverse }

/-- helper.rs 76-80 -/
def activeIndex (l : List (Option Nat)) (n : Nat) : Option Nat := l.findIdx? fun e => decide (e = some n)

/-- helper.rs 86-102 on the list newest first: the entry and the number of newer ones -/
def formatEntry (d : Doc) (t : Str) : List (Option Nat) → Option (Nat × Nat)
  | [] => none
  | some i :: r => if tag d i = t then some (0, i) else (formatEntry d t r).map fun x => (x.1 + 1, x.2)
  | none :: r => (formatEntry d t r).map fun x => (x.1 + 1, x.2)

/-- helper.rs 86-102 -/
def findFormat (s : St) (t : Str) : Option (Nat × Nat) :=
  (formatEntry s.doc t s.active).map fun x => (s.active.length - 1 - x.1, x.2)

/-- `rposition` of helper.rs 347 -/
def lastIndex (l : List Nat) (n : Nat) : Option Nat :=
  (l.reverse.findIdx? fun x => decide (x = n)).map fun k => l.length - 1 - k

/-- helper.rs 104-116 -/
def furthestBlock (s : St) (pos : Nat) : Option (Nat × Nat) :=
  (((openVec s).drop pos).findIdx? fun i => isSpecial s.doc i).bind fun k =>
    ((openVec s)[pos + k]?).map fun i => (pos + k, i)

/-- helper.rs 18-21 -/
inductive Bookmark
  | replace (n : Nat)
  | after (n : Nat)

/-- the inner loop of helper.rs 398-446; `count` is the counter before it is raised, `idx` is `node_idx`; the result is the last
node and the bookmark.  It ends because `idx` gets smaller. -/
def innerLoop (formatElem block : Nat) : Nat → Nat → Nat → Bookmark → M (Nat × Bookmark)
  | 0, _, last, bm => pure (last, bm)
  | idx + 1, count, last, bm => fun s =>
    match (openVec s)[idx]? with
    | none => none
    | some node =>
      if node = formatElem then some ((last, bm), s)
      else if count + 1 > 3 then
        ((do
          upd fun s => match activeIndex (activeVec s) node with
            | some k => { s with active := ((activeVec s).eraseIdx k).reverse }
            | none => s
          setOpenVec ((openVec s).eraseIdx idx)
          innerLoop formatElem block idx (count + 1) last bm) : M (Nat × Bookmark)) s
      else match activeIndex (activeVec s) node with
        | none =>
          ((do
            setOpenVec ((openVec s).eraseIdx idx)
            innerLoop formatElem block idx (count + 1) last bm) : M (Nat × Bookmark)) s
        | some k =>
          ((do
            let new ← dom (.clone node)
            setActiveVec ((activeVec s).set k (some new))
            setOpenVec ((openVec s).set idx new)
            let _ ← dom (.detach last)
            let _ ← dom (.attach last new none)
            innerLoop formatElem block idx (count + 1) new (if last = block then .after new else bm)) : M (Nat × Bookmark)) s

/-- helper.rs 462-465 -/
def moveAll (p : Nat) : List Nat → M Unit
  | [] => pure ()
  | c :: r => do
    let _ ← dom (.relocate c p)
    moveAll p r

/-- helper.rs 471-486 -/
def placeActive (formatElem new : Nat) : Bookmark → M Unit
  | .replace n => upd fun s => match activeIndex (activeVec s) n with
    | some k => { s with active := ((activeVec s).set k (some new)).reverse }
    | none => s
  | .after n => upd fun s => match activeIndex (activeVec s) n with
    | some k =>
      let l := (activeVec s).insertIdx (k + 1) (some new)
      { s with active := (match activeIndex l formatElem with
        | some j => l.eraseIdx j
        | none => l).reverse }
    | none => s

/-- helper.rs 489-492 -/
def placeOpen (formatElem block new : Nat) : M Unit := upd fun s =>
  let l := (openVec s).filter fun x => decide (x ≠ formatElem)
  { s with opened := (match l.findIdx? fun x => decide (x = block) with
    | some k => l.insertIdx (k + 1) new
    | none => l).reverse }

/-- helper.rs 384-492: from the common ancestor on -/
def adoptBlock (formatElem : Nat) (name namesp : Str) (as : Attrs) (ancestor blockIdx block : Nat) : M Unit := do
  let r ← innerLoop formatElem block blockIdx 0 block (.replace formatElem)
  let _ ← dom (.detach r.1)
  insertHere r.1 (some ancestor)
  let new ← dom (.createElement name namesp as)
  let cs ← ask fun s => children s.doc block
  moveAll new cs
  let _ ← dom (.attach new block none)
  placeActive formatElem new r.2
  placeOpen formatElem block new

/-- the outer loop of helper.rs 318-493, with the rounds left -/
def outerLoop (subject : Str) : Nat → M Unit
  | 0 => pure ()
  | k + 1 => fun s =>
    match findFormat s subject with
    | none => otherEndTag subject s
    | some (fi, fe) =>
      match lastIndex (openVec s) fe with
      | none => setActiveVec ((activeVec s).eraseIdx fi) s
      | some pos =>
        if !inScope (tag s.doc fe) .regular s then some ((), s)
        else match furthestBlock s pos with
          | none =>
            ((do
              setOpenVec ((openVec s).take pos)
              setActiveVec ((activeVec s).eraseIdx fi)) : M Unit) s
          | some (bi, b) =>
            if pos = 0 then some ((), s)
            else match (openVec s)[pos - 1]? with
              | none => none
              | some anc =>
                ((do
                  adoptBlock fe (tag s.doc fe) ((ns s.doc fe).getD htmlNs) ((attrs s.doc fe).getD []) anc bi b
                  outerLoop subject k) : M Unit) s

/-- helper.rs 295-494 -/
def adoption (subject : Str) : M Unit := fun s =>
  if decide (curTag s = subject) && isHtml s.doc (current s) && (activeIndex (activeVec s) (current s)).isNone then pop s
  else outerLoop subject 8 s

/-! ## The insertion modes -/

/-- an action after which the token has been dealt with -/
def fin (m : M Unit) : M Next := do
  m
  pure .done

/-- an action after which the token is processed again -/
def re (m : M Unit) : M Next := do
  m
  pure .again

/-- the token is ignored -/
def ignore : M Next := pure .done

/-- parser.rs 3657-3659 -/
def stop : M Unit := upd fun s => { s with finished := true }

/-- parser.rs 2392, 2551, 3368 -/
def setForm (n : Option Nat) : M Unit := upd fun s => { s with form := n }

/-- `type` is not `hidden`, ignoring case (parser.rs 2791, 3348; no character outside ASCII becomes a
letter of `hidden` in lower case) -/
def notHidden (as : Attrs) : Bool :=
  match Map.look as "type".toList with
  | some v => !eqIgnoreCase v "hidden".toList
  | none => true

/-- parser.rs 2402-2425, 2440-2463: the loop for `li`, and for `dd` and `dt` -/
def closeItems (names : List String) : List Nat → M Unit
  | [] => pure ()
  | x :: r => fun s =>
    let t := tag s.doc x
    if oneOf t names then ((do
      implied (some t) false
      popNamed t) : M Unit) s
    else if !oneOf t ["address", "div", "p"] && isSpecial s.doc x then some ((), s)
    else closeItems names r s

/-- parser.rs 2395-2470: the start tags `li`, `dd` and `dt` -/
def startItem (names : List String) (n : Str) (as : Attrs) : M Next := do
  noFrameset
  ifM (fun s => s.opened.isEmpty) ignore (fin (do
    fun s => closeItems names s.opened s
    closePInScope
    insert_ n as))

/-- parser.rs 2284-2286: `while` the current node is not `html` pop; it does not end if there is none -/
def popToHtml (d : Doc) : List Nat → Option (List Nat)
  | [] => none
  | x :: r => if is (tag d x) "html" then some (x :: r) else popToHtml d r

/-- parser.rs 2262-2291 -/
def startFrameset (n : Str) (as : Attrs) : M Next := fun s =>
  match (openVec s)[1]? with
  | none => some (.done, s)
  | some second =>
    if !is (tag s.doc second) "body" then some (.done, s)
    else if !s.framesetOk then some (.done, s)
    else (fin (do
      whenM (fun s => (Dom.parent s.doc second).isSome) (do let _ ← dom (.detach second); pure ())
      fun s => (popToHtml s.doc s.opened).map fun l => ((), { s with opened := l })
      insert_ n as
      setMode .inFrameset)) s

/-- parser.rs 2233-2261 -/
def startBody (as : Attrs) : M Next := fun s =>
  match (openVec s)[1]? with
  | none => some (.done, s)
  | some second =>
    if !is (tag s.doc second) "body" || hasOpen "template" s then some (.done, s)
    else (fin (do
      noFrameset
      match (openVec s).find? fun i => is (tag s.doc i) "body" && isHtml s.doc i with
      | some b => addAttrs b as
      | none => pure ())) s

/-- the end tags of parser.rs 2491-2533 and others: in scope, implied end tags, pop -/
def endBlock (n : Str) (sc : Scope) (except : Option Str) (after : M Unit) : M Next :=
  ifM (inScope n sc) (fin (do
    implied except false
    popNamed n
    after)) ignore

/-- parser.rs 2534-2571 -/
def endForm (n : Str) : M Next :=
  ifM (hasOpen "template") (endBlock n .regular none (pure ())) (fun s =>
    match s.form with
    | none => some (.done, { s with form := none })
    | some f =>
      (fin (do
        setForm none
        whenM (inScope n .regular) (do
          implied none false
          removeOpen f))) s)

/-- parser.rs 2913-2936, 2937-2960: a foreign element from the body -/
def startForeign (n namesp : Str) (selfClosing : Bool) (as : Attrs) : M Next := fin (do
  reconstruct
  let _ ← insertElement n namesp as
  if selfClosing then pop else pure ())

/-- parser.rs 2640-2654 -/
def startA (n : Str) (as : Attrs) : M Next := fin (do
  fun s => match formattingNamed s.doc "a" s.active with
    | some i => ((do
      adoption n
      removeOpen i
      removeActive i) : M Unit) s
    | none => some ((), s)
  reconstruct
  let e ← insertHtml n as
  pushActive e)

/-- parser.rs 2669-2672 -/
def startFormatting (n : Str) (as : Attrs) : M Next := fin (do
  reconstruct
  let e ← insertHtml n as
  pushActive e)

/-- parser.rs 2674-2685 -/
def startNobr (n : Str) (as : Attrs) : M Next := fin (do
  reconstruct
  whenM (inScopeS "nobr" .regular) (do
    adoption n
    reconstruct)
  let e ← insertHtml n as
  pushActive e)

/-- parser.rs 2379-2394 -/
def startForm (n : Str) (as : Attrs) : M Next :=
  ifM (fun s => s.form.isSome && !hasOpen "template" s) ignore (fin (do
    closePInScope
    let e ← insertHtml n as
    whenM (fun s => !hasOpen "template" s) (setForm (some e))))

/-- a mode in which a `select` counts as one in a table, parser.rs 2870-2874 -/
def tableMode : Mode → Bool
  | .inTable | .inCaption | .inTableBody | .inRow | .inCell => true
  | _ => false

/-- `if` on a Boolean condition on the name, for actions -/
def onName {α : Type} (c : Bool) (a b : M α) : M α := if c then a else b

/-- parser.rs 3144-3148 (in head, anything else) -/
def headElse : M Next := re (do
  pop
  setMode .afterHead)

/-- parser.rs 3086-3111 -/
def startTemplate (n : Str) (as : Attrs) : M Next := fin (do
  let e ← insertHtml n as
  pushMarker
  noFrameset
  upd fun s => { s with mode := .inTemplate, templateModes := .inTemplate :: s.templateModes }
  let c ← ask current
  whenM (fun s => isElement s.doc e) (do let _ ← dom (.setTemplate e c); pure ()))

/-- parser.rs 3112-3129 -/
def endTemplate : M Next :=
  ifM (hasOpen "template") (fin (do
    implied none true
    popNamed "template".toList
    clearMarker
    upd fun s => { s with templateModes := s.templateModes.tail }
    reset)) ignore

/-- parser.rs 2196-2215: the start tag `html` -/
def startHtml (as : Attrs) : M Next :=
  ifM (hasOpen "template") ignore (fin fun s =>
    match s.opened.getLast? with
    | none => some ((), s)
    | some n => addAttrs n as s)

/-- parser.rs 2988-3149; the start tag `html` is the only one handled as in the body -/
def inHead (env : Env) (t : Token) : M Next :=
  match t with
  | .text v =>
    if isMixed v then fin (putBack (splitMixed v))
    else if isBlank v then fin (insertText v)
    else headElse
  | .comment v => fin (insertComment v)
  | .doctype _ _ _ _ => ignore
  | .startTag n _ as =>
    if is n "html" then startHtml as
    else if oneOf n ["base", "basefont", "bgsound", "link"] then fin (insertVoid n as)
    else if is n "meta" then fin (insertVoid n as)
    else if is n "title" then fin (rcData n as)
    else if is n "noscript" && env.scripting then fin (rawData n as)
    else if oneOf n ["noframes", "style"] then fin (rawData n as)
    else if is n "noscript" then fin (do
      insert_ n as
      setMode .inHeadNoscript)
    else if is n "script" then fin (do
      insert_ n as
      textMode .script)
    else if is n "template" then startTemplate n as
    else if is n "head" then ignore
    else headElse
  | .endTag n =>
    if is n "head" then fin (do
      pop
      setMode .afterHead)
    else if oneOf n ["body", "html", "br"] then headElse
    else if is n "template" then endTemplate
    else ignore
  | .eof => headElse

/-- parser.rs 3211-3225: the end of the file in a template -/
def eofTemplate : M Next :=
  ifM (hasOpen "template")
    (re (do
      popNamed "template".toList
      clearMarker
      reset
      upd fun s => { s with templateModes := s.templateModes.tail }))
    (fin stop)

/-- the names handled as in the head, parser.rs 2216-2226 -/
def headNames : List String :=
  ["base", "basefont", "bgsound", "link", "meta", "noframes", "script", "style", "template", "title"]

/-- parser.rs 2322-2346 -/
def blockStart : List String :=
  ["address", "article", "aside", "blockquote", "center", "details", "dialog", "dir", "div", "dl", "fieldset", "figcaption",
   "figure", "footer", "header", "hgroup", "main", "menu", "nav", "ol", "p", "search", "section", "summary", "ul"]

/-- parser.rs 2492-2518 -/
def blockEnd : List String :=
  ["address", "article", "aside", "blockquote", "button", "center", "details", "dialog", "dir", "div", "dl", "fieldset",
   "figcaption", "figure", "footer", "header", "hgroup", "listing", "main", "menu", "nav", "ol", "pre", "search", "section",
   "summary", "ul"]

/-- parser.rs 2355 -/
def headings : List String := ["h1", "h2", "h3", "h4", "h5", "h6"]

/-- parser.rs 2656-2667 -/
def formattingStart : List String := ["b", "big", "code", "em", "font", "i", "s", "small", "strike", "strong", "tt", "u"]

/-- parser.rs 2687-2700 -/
def formattingEnd : List String :=
  ["a", "b", "big", "code", "em", "font", "i", "nobr", "s", "small", "strike", "strong", "tt", "u"]

/-- parser.rs 2962-2972 -/
def misplaced : List String :=
  ["caption", "col", "colgroup", "frame", "head", "tbody", "td", "tfoot", "th", "thead", "tr"]

/-- the start tags of parser.rs 2169-2985 -/
def inBodyStart (env : Env) (n : Str) (sc : Bool) (as : Attrs) : M Next :=
  if is n "html" then startHtml as
  else if oneOf n headNames then inHead env (.startTag n sc as)
  else if is n "body" then startBody as
  else if is n "frameset" then startFrameset n as
  else if oneOf n blockStart then fin (do
    closePInScope
    insert_ n as)
  else if oneOf n headings then fin (do
    closePInScope
    whenM (fun s => oneOf (curTag s) headings) pop
    insert_ n as)
  else if oneOf n ["pre", "listing"] then fin (do
    closePInScope
    insert_ n as
    upd fun s => { s with ignoreLf := true, framesetOk := false })
  else if is n "form" then startForm n as
  else if is n "li" then startItem ["li"] n as
  else if oneOf n ["dd", "dt"] then startItem ["dd", "dt"] n as
  else if is n "plaintext" then fin (do
    closePInScope
    insert_ n as
    upd fun s => { s with switch := some .plaintext })
  else if is n "button" then fin (do
    whenM (inScopeS "button" .regular) (do
      implied none false
      popNamed "button".toList)
    reconstruct
    insert_ n as
    noFrameset)
  else if is n "a" then startA n as
  else if oneOf n formattingStart then startFormatting n as
  else if is n "nobr" then startNobr n as
  else if oneOf n ["applet", "marquee", "object"] then fin (do
    reconstruct
    insert_ n as
    pushMarker
    noFrameset)
  else if is n "table" then fin (do
    whenM (fun s => !s.quirks) closePInScope
    insert_ n as
    noFrameset
    setMode .inTable)
  else if oneOf n ["area", "br", "embed", "img", "keygen", "wbr"] then fin (do
    reconstruct
    insertVoid n as
    noFrameset)
  else if is n "input" then fin (do
    reconstruct
    insertVoid n as
    if notHidden as then noFrameset else pure ())
  else if oneOf n ["param", "source", "track"] then fin (insertVoid n as)
  else if is n "hr" then fin (do
    closePInScope
    insertVoid n as
    noFrameset)
  else if is n "image" then pure (.other (.startTag "img".toList sc as))
  else if is n "textarea" then fin (do
    insert_ n as
    upd fun s => { s with ignoreLf := true }
    textMode .rcdata
    noFrameset)
  else if is n "xmp" then fin (do
    closePInScope
    reconstruct
    noFrameset
    rawData n as)
  else if is n "iframe" then fin (do
    noFrameset
    rawData n as)
  else if is n "noembed" then fin (rawData n as)
  else if is n "noscript" && env.scripting then fin (rawData n as)
  else if is n "select" then fin (do
    reconstruct
    insert_ n as
    noFrameset
    upd fun s => { s with mode := if tableMode s.mode then .inSelectInTable else .inSelect })
  else if oneOf n ["optgroup", "option"] then fin (do
    whenM (fun s => is (curTag s) "option") pop
    reconstruct
    insert_ n as)
  else if oneOf n ["rb", "rtc"] then fin (do
    whenM (inScopeS "ruby" .regular) (implied none false)
    insert_ n as)
  else if oneOf n ["rp", "rt"] then fin (do
    whenM (inScopeS "ruby" .regular) (implied (some "rtc".toList) false)
    insert_ n as)
  else if is n "math" then startForeign n mathNs sc (env.foreignAttrs (env.mathAttrs as))
  else if is n "svg" then startForeign n svgNs sc (env.foreignAttrs (env.svgAttrs as))
  else if oneOf n misplaced then ignore
  else fin (do
    reconstruct
    insert_ n as)

/-- the end tags of parser.rs 2169-2985 -/
def inBodyEnd (n : Str) : M Next :=
  if is n "template" then endTemplate
  else if is n "body" then ifM (inScopeS "body" .regular) (fin (setMode .afterBody)) ignore
  else if is n "html" then ifM (inScopeS "body" .regular) (re (setMode .afterBody)) ignore
  else if oneOf n blockEnd then endBlock n .regular none (pure ())
  else if is n "form" then endForm n
  else if is n "p" then fin (do
    ifM (inScope n .button) (pure ()) (insert_ n [])
    closeP)
  else if is n "li" then endBlock n .listItem (some n) (pure ())
  else if oneOf n ["dd", "dt"] then endBlock n .regular (some n) (pure ())
  else if oneOf n headings then
    ifM (fun s => headings.any fun h => inScopeS h .regular s) (fin (do
      implied (some n) false
      popAny headings)) ignore
  else if is n "sarcasm" then fin (otherEndTag n)
  else if oneOf n formattingEnd then fin (adoption n)
  else if oneOf n ["applet", "marquee", "object"] then endBlock n .regular none clearMarker
  else if is n "br" then fin (do
    reconstruct
    insertVoid n []
    noFrameset)
  else fin (otherEndTag n)

/-- parser.rs 2169-2985 -/
def inBody (env : Env) (t : Token) : M Next :=
  match t with
  | .text v =>
    if isMixedNull v then fin (putBack (splitNull v))
    else if isNull v then ignore
    else fin (do
      reconstruct
      insertText v
      if isBlank v then pure () else noFrameset)
  | .comment v => fin (insertComment v)
  | .doctype _ _ _ _ => ignore
  | .startTag n sc as => inBodyStart env n sc as
  | .endTag n => inBodyEnd n
  | .eof => ifM (fun s => s.templateModes.isEmpty) (fin stop) eofTemplate

/-- replacing the top of the stack of template modes, parser.rs 3177-3206 -/
def templateTo (m : Mode) : M Next := re (upd fun s =>
  { s with templateModes := m :: s.templateModes.tail, mode := m })

/-- parser.rs 3152-3227 -/
def inTemplate (env : Env) (t : Token) : M Next :=
  match t with
  | .startTag n _ _ =>
    if oneOf n headNames then inHead env t
    else if oneOf n ["caption", "colgroup", "tbody", "tfoot", "thead"] then templateTo .inTable
    else if is n "col" then templateTo .inColumnGroup
    else if is n "tr" then templateTo .inTableBody
    else if oneOf n ["td", "th"] then templateTo .inRow
    else templateTo .inBody
  | .endTag n => if is n "template" then inHead env t else ignore
  | .eof => eofTemplate
  | _ => inBody env t

/-- with foster parenting: parser.rs 3378-3384 -/
def fostered (m : M Next) : M Next := do
  upd fun s => { s with foster := true }
  let r ← m
  upd fun s => { s with foster := false }
  pure r

/-- the end tags that a table ignores, parser.rs 3320-3330 -/
def tableIgnores : List String :=
  ["body", "caption", "col", "colgroup", "html", "tbody", "td", "tfoot", "th", "thead", "tr"]

/-- parser.rs 3297-3318: a `table` tag in a table -/
def closeTable : M Unit := do
  popNamed "table".toList
  reset

/-- parser.rs 3230-3385 -/
def inTable (env : Env) (t : Token) : M Next :=
  match t with
  | .text _ =>
    ifM (fun s => oneOf (curTag s) ["table", "tbody", "template", "tfoot", "tr"])
      (re (upd fun s => { s with pending := [], original := s.mode, mode := .inTableText }))
      (fostered (inBody env t))
  | .comment v => fin (insertComment v)
  | .doctype _ _ _ _ => ignore
  | .startTag n _ as =>
    if is n "caption" then fin (do
      clearToTable
      pushMarker
      insert_ n as
      setMode .inCaption)
    else if is n "colgroup" then fin (do
      clearToTable
      insert_ n as
      setMode .inColumnGroup)
    else if is n "col" then re (do
      clearToTable
      insert_ "colgroup".toList []
      setMode .inColumnGroup)
    else if oneOf n ["tbody", "tfoot", "thead"] then fin (do
      clearToTable
      insert_ n as
      setMode .inTableBody)
    else if oneOf n ["td", "th", "tr"] then re (do
      clearToTable
      insert_ "tbody".toList []
      setMode .inTableBody)
    else if is n "table" then ifM (hasOpen "table") (re closeTable) ignore
    else if oneOf n ["style", "script", "template"] then inHead env t
    else if is n "input" then
      if notHidden as then fostered (inBody env t) else fin (insertVoid n as)
    else if is n "form" then
      ifM (fun s => hasOpen "template" s || s.form.isSome) ignore (fin (do
        let e ← insertHtml n as
        setForm (some e)
        pop))
    else fostered (inBody env t)
  | .endTag n =>
    if is n "table" then ifM (hasOpen "table") (fin closeTable) ignore
    else if oneOf n tableIgnores then ignore
    else if is n "template" then inHead env t
    else fostered (inBody env t)
  | .eof => inBody env t

/-- parser.rs 3480-3506 and the like: `select` in select scope is closed -/
def closeSelect : M Unit := do
  popNamed "select".toList
  reset

/-- an open `option` is popped -/
def popOption : M Unit := whenM (fun s => is (curTag s) "option") pop
/-- an open `optgroup` is popped -/
def popOptgroup : M Unit := whenM (fun s => is (curTag s) "optgroup") pop

/-- parser.rs 3388-3523 -/
def inSelect (env : Env) (t : Token) : M Next :=
  match t with
  | .text v =>
    if isMixed v then fin (putBack (splitMixed v))
    else if isNull v then ignore
    else fin (insertText v)
  | .comment v => fin (insertComment v)
  | .doctype _ _ _ _ => ignore
  | .startTag n _ as =>
    if is n "html" then startHtml as
    else if is n "option" then fin (do
      popOption
      insert_ n as)
    else if is n "optgroup" then fin (do
      popOption
      popOptgroup
      insert_ n as)
    else if is n "hr" then fin (do
      popOption
      popOptgroup
      insertVoid n as)
    else if is n "select" then ifM (inScopeS "select" .select) (fin closeSelect) ignore
    else if oneOf n ["input", "keygen", "textarea"] then ifM (inScopeS "select" .select) (re closeSelect) ignore
    else if oneOf n ["script", "template"] then inHead env t
    else ignore
  | .endTag n =>
    if is n "optgroup" then fin (do
      whenM (fun s => is (curTag s) "option" && decide (s.opened.length > 1) &&
        is (tag s.doc ((s.opened.tail.head?).getD 0)) "optgroup") pop
      popOptgroup)
    else if is n "option" then fin popOption
    else if is n "select" then ifM (inScopeS "select" .select) (fin closeSelect) ignore
    else if is n "template" then inHead env t
    else ignore
  | .eof => inBody env t

/-- parser.rs 709-780 -/
def initial (env : Env) (t : Token) : M Next :=
  let other : M Next := re (upd fun s => { s with quirks := true, mode := .beforeHtml })
  match t with
  | .text v => if isMixed v then fin (putBack (splitMixed v)) else if isBlank v then ignore else other
  | .comment v => fin (insertCommentIn v 0)
  | .doctype n q p y => fin (do
    insertDoctype n p y
    upd fun s => { s with quirks := if env.srcdoc then s.quirks else env.quirks n p y q, mode := .beforeHtml })
  | _ => other

/-- parser.rs 781-829 -/
def beforeHtml (t : Token) : M Next :=
  let other : M Next := re (do
    insertRoot []
    setMode .beforeHead)
  match t with
  | .doctype _ _ _ _ => ignore
  | .comment v => fin (insertCommentIn v 0)
  | .text v => if isMixed v then fin (putBack (splitMixed v)) else if isBlank v then ignore else other
  | .startTag n _ as =>
    if is n "html" then fin (do
      insertRoot as
      setMode .beforeHead)
    else other
  | .endTag n => if oneOf n ["head", "body", "html", "br"] then other else ignore
  | .eof => other

/-- parser.rs 852-856, 877-879: the `head` element -/
def startHead (as : Attrs) : M Unit := do
  let e ← insertHtml "head".toList as
  upd fun s => { s with head := some e, mode := .inHead }

/-- parser.rs 830-882 -/
def beforeHead (t : Token) : M Next :=
  let other : M Next := re (startHead [])
  match t with
  | .text v => if isMixed v then fin (putBack (splitMixed v)) else if isBlank v then ignore else other
  | .comment v => fin (insertComment v)
  | .doctype _ _ _ _ => ignore
  | .startTag n _ as =>
    if is n "html" then startHtml as
    else if is n "head" then fin (startHead as)
    else other
  | .endTag n => if oneOf n ["head", "body", "html", "br"] then other else ignore
  | .eof => other

/-- parser.rs 884-946 -/
def inHeadNoscript (env : Env) (t : Token) : M Next :=
  let other : M Next := re (do
    pop
    setMode .inHead)
  match t with
  | .doctype _ _ _ _ => ignore
  | .startTag n _ as =>
    if is n "html" then startHtml as
    else if oneOf n ["basefont", "bgsound", "link", "meta", "noframes", "style"] then inHead env t
    else if oneOf n ["head", "noscript"] then ignore
    else other
  | .endTag n =>
    if is n "noscript" then fin (do
      pop
      setMode .inHead)
    else if is n "br" then other
    else ignore
  | .text v => if isMixed v then fin (putBack (splitMixed v)) else if isBlank v then inHead env t else other
  | .comment _ => inHead env t
  | .eof => other

/-- parser.rs 989-998: as in the head, with the head element on the stack meanwhile -/
def headAgain (env : Env) (t : Token) : M Next := fun s =>
  match s.head with
  | none => inHead env t s
  | some h => ((do
      push h
      let r ← inHead env t
      removeOpen h
      pure r) : M Next) s

/-- parser.rs 947-1031 -/
def afterHead (env : Env) (t : Token) : M Next :=
  let other : M Next := re (do
    insert_ "body".toList []
    setMode .inBody)
  match t with
  | .text v => if isMixed v then fin (putBack (splitMixed v)) else if isBlank v then fin (insertText v) else other
  | .comment v => fin (insertComment v)
  | .doctype _ _ _ _ => ignore
  | .startTag n _ as =>
    if is n "html" then startHtml as
    else if is n "body" then fin (do
      insert_ n as
      noFrameset
      setMode .inBody)
    else if is n "frameset" then fin (do
      insert_ n as
      setMode .inFrameset)
    else if oneOf n headNames then headAgain env t
    else if is n "head" then ignore
    else other
  | .endTag n =>
    if is n "template" then inHead env t
    else if oneOf n ["body", "html", "br"] then other
    else ignore
  | .eof => other

/-- parser.rs 1033-1095 without the style sheets -/
def inText (t : Token) : M Next :=
  let back : M Unit := upd fun s => { s with opened := s.opened.tail, mode := s.original }
  match t with
  | .text v => fin (insertText v)
  | .eof => re back
  | _ => fin back

/-- parser.rs 1127-1131: the pending characters are handled as in the body, one token after the other -/
def bodyTokens (env : Env) : List Token → M Unit
  | [] => pure ()
  | t :: r => do
    let _ ← inBody env t
    bodyTokens env r

/-- parser.rs 1110-1145: what was pending goes into the document -/
def flushPending (env : Env) : M Unit := do
  let v ← ask (·.pending)
  if v.any (fun c => !isWhite c) then (do
    upd fun s => { s with foster := true }
    bodyTokens env (splitMixed v)
    upd fun s => { s with foster := false })
  else insertText v
  upd fun s => { s with pending := [], mode := s.original }

/-- parser.rs 1097-1148 -/
def inTableText (env : Env) (t : Token) : M Next :=
  match t with
  | .text v =>
    if isMixed v then fin (putBack (splitMixed v))
    else if isNull v then ignore
    else fin (upd fun s => { s with pending := s.pending ++ v })
  | _ => re (flushPending env)

/-- the tags that close a caption or a cell, parser.rs 1158, 1460 -/
def cellBreakers : List String := ["caption", "col", "colgroup", "tbody", "td", "tfoot", "th", "thead", "tr"]

/-- parser.rs 1187-1206 -/
def closeCaption (again : Bool) : M Next :=
  ifM (hasOpen "caption") (do
    implied none false
    popNamed "caption".toList
    clearMarker
    setMode .inTable
    pure (if again then .again else .done)) ignore

/-- parser.rs 1149-1207 -/
def inCaption (env : Env) (t : Token) : M Next :=
  match t with
  | .endTag n =>
    if is n "caption" then closeCaption false
    else if is n "table" then closeCaption true
    else if oneOf n ["body", "col", "colgroup", "html", "tbody", "td", "tfoot", "th", "thead", "tr"] then ignore
    else inBody env t
  | .startTag n _ _ => if oneOf n cellBreakers then closeCaption true else inBody env t
  | _ => inBody env t

/-- parser.rs 1244-1254, 1259-1267 -/
def closeColgroup : M Next :=
  ifM (fun s => is (curTag s) "colgroup") (re (do
    pop
    setMode .inTable)) ignore

/-- parser.rs 1208-1270 -/
def inColumnGroup (env : Env) (t : Token) : M Next :=
  match t with
  | .text v => if isMixed v then fin (putBack (splitMixed v)) else if isBlank v then fin (insertText v) else closeColgroup
  | .comment v => fin (insertComment v)
  | .doctype _ _ _ _ => ignore
  | .startTag n _ as =>
    if is n "html" then startHtml as
    else if is n "col" then fin (insertVoid n as)
    else if is n "template" then inHead env t
    else closeColgroup
  | .endTag n =>
    if is n "template" then inHead env t
    else if is n "colgroup" then closeColgroup
    else if is n "col" then ignore
    else closeColgroup
  | .eof => inBody env t

/-- a table section is in table scope -/
def sectionInScope (s : St) : Bool :=
  inScopeS "tbody" .table s || inScopeS "tfoot" .table s || inScopeS "thead" .table s

/-- parser.rs 1303-1306 and the like -/
def closeSection : M Unit := do
  clearToBody
  pop
  setMode .inTable

/-- parser.rs 1271-1352 -/
def inTableBody (env : Env) (t : Token) : M Next :=
  match t with
  | .startTag n _ as =>
    if is n "tr" then fin (do
      clearToBody
      insert_ n as
      setMode .inRow)
    else if oneOf n ["th", "td"] then re (do
      clearToBody
      insert_ "tr".toList []
      setMode .inRow)
    else if oneOf n ["caption", "col", "colgroup", "tbody", "tfoot", "thead"] then
      ifM sectionInScope (re closeSection) ignore
    else inTable env t
  | .endTag n =>
    if oneOf n ["tbody", "tfoot", "thead"] then ifM (inScope n .table) (fin closeSection) ignore
    else if is n "table" then ifM sectionInScope (re closeSection) ignore
    else if oneOf n ["body", "caption", "col", "colgroup", "html", "td", "th", "tr"] then ignore
    else inTable env t
  | _ => inTable env t

/-- parser.rs 1370-1373 and the like -/
def closeRow : M Unit := do
  clearToRow
  pop
  setMode .inTableBody

/-- parser.rs 1353-1435 -/
def inRow (env : Env) (t : Token) : M Next :=
  match t with
  | .startTag n _ as =>
    if oneOf n ["th", "td"] then fin (do
      clearToRow
      insert_ n as
      setMode .inCell
      pushMarker)
    else if oneOf n ["caption", "col", "colgroup", "tbody", "tfoot", "thead", "tr"] then
      ifM (inScopeS "tr" .table) (re closeRow) ignore
    else inTable env t
  | .endTag n =>
    if is n "tr" then ifM (inScopeS "tr" .table) (fin closeRow) ignore
    else if is n "table" then ifM (inScopeS "tr" .table) (re closeRow) ignore
    else if oneOf n ["tbody", "tfoot", "thead"] then
      ifM (fun s => inScope n .table s && inScopeS "tr" .table s) (re closeRow) ignore
    else if oneOf n ["body", "caption", "col", "colgroup", "html", "td", "th"] then ignore
    else inTable env t
  | _ => inTable env t

/-- parser.rs 1436-1500 -/
def inCell (env : Env) (t : Token) : M Next :=
  match t with
  | .endTag n =>
    if oneOf n ["th", "td"] then ifM (inScope n .table) (fin (do
      implied none false
      popNamed n
      clearMarker
      setMode .inRow)) ignore
    else if oneOf n ["body", "caption", "col", "colgroup", "html"] then ignore
    else if oneOf n ["table", "tbody", "tfoot", "thead", "tr"] then ifM (inScope n .table) (re closeCell) ignore
    else inBody env t
  | .startTag n _ _ =>
    if oneOf n cellBreakers then
      ifM (fun s => inScopeS "td" .table s || inScopeS "th" .table s) (re closeCell) ignore
    else inBody env t
  | _ => inBody env t

/-- parser.rs 1504-1511 -/
def selectBreakers : List String := ["caption", "table", "tbody", "tfoot", "thead", "tr", "td", "th"]

/-- parser.rs 1502-1543 -/
def inSelectInTable (env : Env) (t : Token) : M Next :=
  match t with
  | .startTag n _ _ => if oneOf n selectBreakers then re closeSelect else inSelect env t
  | .endTag n =>
    if oneOf n selectBreakers then ifM (inScope n .table) (re closeSelect) ignore else inSelect env t
  | _ => inSelect env t

/-- parser.rs 1545-1583 -/
def afterBody (env : Env) (t : Token) : M Next :=
  let other : M Next := re (setMode .inBody)
  match t with
  | .text v => if isMixed v then fin (putBack (splitMixed v)) else if isBlank v then inBody env t else other
  | .comment v => fin fun s => insertCommentIn v (s.opened.getLast?.getD 0) s
  | .doctype _ _ _ _ => ignore
  | .startTag n _ as => if is n "html" then startHtml as else other
  | .endTag n =>
    if is n "html" then ifM (fun s => s.context.isSome) ignore (fin (setMode .afterAfterBody)) else other
  | .eof => fin stop

/-- parser.rs 1606-1620 -/
def endFrameset : M Next :=
  ifM (fun s => is (curTag s) "html") ignore (fin (do
    pop
    whenM (fun s => s.context.isNone && !is (curTag s) "frameset") (setMode .afterFrameset)))

/-- parser.rs 1584-1643 -/
def inFrameset (env : Env) (t : Token) : M Next :=
  match t with
  | .text v => if isMixed v then fin (putBack (splitMixed v)) else if isBlank v then fin (insertText v) else ignore
  | .comment v => fin (insertComment v)
  | .startTag n _ as =>
    if is n "html" then startHtml as
    else if is n "frameset" then fin (insert_ n as)
    else if is n "frame" then fin (insertVoid n as)
    else if is n "noframes" then inHead env t
    else ignore
  | .endTag n => if is n "frameset" then endFrameset else ignore
  | .eof => fin stop
  | _ => ignore

/-- parser.rs 1644-1677 -/
def afterFrameset (env : Env) (t : Token) : M Next :=
  match t with
  | .text v => if isMixed v then fin (putBack (splitMixed v)) else if isBlank v then fin (insertText v) else ignore
  | .comment v => fin (insertComment v)
  | .startTag n _ as =>
    if is n "html" then startHtml as
    else if is n "noframes" then inHead env t
    else ignore
  | .endTag n => if is n "html" then fin (setMode .afterAfterFrameset) else ignore
  | .eof => fin stop
  | _ => ignore

/-- parser.rs 1678-1703 -/
def afterAfterBody (env : Env) (t : Token) : M Next :=
  let other : M Next := re (setMode .inBody)
  match t with
  | .comment v => fin (insertCommentIn v 0)
  | .doctype _ _ _ _ => ignore
  | .text v => if isMixed v then fin (putBack (splitMixed v)) else if isBlank v then inBody env t else other
  | .startTag n _ as => if is n "html" then startHtml as else other
  | .eof => fin stop
  | .endTag _ => other

/-- parser.rs 1704-1733 -/
def afterAfterFrameset (env : Env) (t : Token) : M Next :=
  match t with
  | .comment v => fin (insertCommentIn v 0)
  | .text v => if isMixed v then fin (putBack (splitMixed v)) else if isBlank v then inBody env t else ignore
  | .startTag n _ as =>
    if is n "html" then startHtml as
    else if is n "noframes" then inHead env t
    else ignore
  | .eof => fin stop
  | _ => ignore

/-- parser.rs 708-1734 -/
def byMode (env : Env) (m : Mode) (t : Token) : M Next :=
  match m with
  | .initial => initial env t
  | .beforeHtml => beforeHtml t
  | .beforeHead => beforeHead t
  | .inHead => inHead env t
  | .inHeadNoscript => inHeadNoscript env t
  | .afterHead => afterHead env t
  | .inBody => inBody env t
  | .text => inText t
  | .inTable => inTable env t
  | .inTableText => inTableText env t
  | .inCaption => inCaption env t
  | .inColumnGroup => inColumnGroup env t
  | .inTableBody => inTableBody env t
  | .inRow => inRow env t
  | .inCell => inCell env t
  | .inSelect => inSelect env t
  | .inSelectInTable => inSelectInTable env t
  | .inTemplate => inTemplate env t
  | .afterBody => afterBody env t
  | .inFrameset => inFrameset env t
  | .afterFrameset => afterFrameset env t
  | .afterAfterBody => afterAfterBody env t
  | .afterAfterFrameset => afterAfterFrameset env t

/-- parser.rs 689-697: a line feed is skipped after `pre`, `listing` and `textarea` -/
def skipLf (ignoreLf : Bool) : Token → Token
  | .text v => if ignoreLf then (match v with
    | '\n' :: r => .text r
    | v => .text v) else .text v
  | t => t

/-- a token left as it is for reprocessing -/
def Next.keep (t : Token) : Next → Next
  | .again => .other t
  | r => r

/-- parser.rs 688-1743 -/
def processHtml (env : Env) (t : Token) : M Next := do
  let lf ← ask (·.ignoreLf)
  upd fun s => { s with ignoreLf := false }
  let m ← ask (·.mode)
  let r ← byMode env m (skipLf lf t)
  pure (r.keep (skipLf lf t))

/-! ## Foreign content -/

/-- attr_replacements.rs 5-43 -/
def svgTags : List (String × String) :=
  [("altglyph", "altGlyph"), ("altglyphdef", "altGlyphDef"), ("altglyphitem", "altGlyphItem"), ("animatecolor", "animateColor"),
   ("animatemotion", "animateMotion"), ("animatetransform", "animateTransform"), ("clippath", "clipPath"),
   ("feblend", "feBlend"), ("fecolormatrix", "feColorMatrix"), ("fecomponenttransfer", "feComponentTransfer"),
   ("fecomposite", "feComposite"), ("feconvolvematrix", "feConvolveMatrix"), ("fediffuselighting", "feDiffuseLighting"),
   ("fedisplacementmap", "feDisplacementMap"), ("fedistantlight", "feDistantLight"), ("fedropshadow", "feDropShadow"),
   ("feflood", "feFlood"), ("fefunca", "feFuncA"), ("fefuncb", "feFuncB"), ("fefuncg", "feFuncG"), ("fefuncr", "feFuncR"),
   ("fegaussianblur", "feGaussianBlur"), ("feimage", "feImage"), ("femerge", "feMerge"), ("femergenode", "feMergeNode"),
   ("femorphology", "feMorphology"), ("feoffset", "feOffset"), ("fepointlight", "fePointLight"),
   ("fespecularlighting", "feSpecularLighting"), ("fespotlight", "feSpotLight"), ("fetile", "feTile"),
   ("feturbulence", "feTurbulence"), ("foreignobject", "foreignObject"), ("glyphref", "glyphRef"),
   ("lineargradient", "linearGradient"), ("radialgradient", "radialGradient"), ("textpath", "textPath")]

/-- parser.rs 3688-3694 -/
def svgTag (n : Str) : Str :=
  match svgTags.find? fun p => is n p.1 with
  | some p => p.2.toList
  | none => n

/-- parser.rs 3857-3864 -/
def adjustedCurrent (s : St) : Nat :=
  match s.context with
  | some c => if s.opened.length = 1 then c else current s
  | none => current s

/-- parser.rs 531-574 -/
def breakout : List String :=
  ["b", "big", "blockquote", "body", "br", "center", "code", "dd", "div", "dl", "dt", "em", "embed", "h1", "h2", "h3", "h4",
   "h5", "h6", "head", "hr", "i", "img", "li", "listing", "menu", "meta", "nobr", "ol", "p", "pre", "ruby", "s", "small",
   "span", "strong", "strike", "sub", "sup", "table", "tt", "u", "ul", "var"]

/-- parser.rs 3917-3929: popping until an integration point or an HTML element is on top -/
def unwindForeign (d : Doc) : List Nat → List Nat
  | [] => []
  | x :: r => if mathPoint d x || htmlPoint d x || isHtml d x then x :: r else unwindForeign d r

/-- parser.rs 3914-3933; with an empty stack the current node is the document, which is neither, so it is popped (nothing) and the
function returns -/
def unexpectedHtml (env : Env) (t : Token) : M Next := do
  upd fun s => { s with opened := unwindForeign s.doc s.opened }
  ifM (fun s => s.opened.isEmpty) ignore (processHtml env t)

/-- parser.rs 589-618 -/
def foreignStart (env : Env) (n : Str) (sc : Bool) (as : Attrs) : M Next := fun s =>
  let space := (ns s.doc (adjustedCurrent s)).getD htmlNs
  let as1 := if space = mathNs then env.mathAttrs as else as
  let as2 := if space = svgNs then env.svgAttrs as1 else as1
  let n' := if space = svgNs then svgTag n else n
  (fin (do
    let _ ← insertElement n' space (env.foreignAttrs as2)
    if sc then pop else pure ())) s

/-- the loop of parser.rs 635-661 on the entries from `node_idx` down; `first` is the first element of the stack, the result
says up to which node to pop, or that HTML content is to be processed, or nothing -/
inductive Found
  | nothing
  | upTo (n : Nat)
  | html
  | outOfRange

/-- parser.rs 635-661 -/
def foreignEndLoop (env : Env) (d : Doc) (n : Str) (first : Nat) : List Nat → Found
  | [] => .outOfRange
  | x :: r =>
    if x = first then .nothing
    else if env.lowered (tag d x) = n then .upTo x
    else match r with
      | [] => .outOfRange
      | y :: _ => if isHtml d y then .html else foreignEndLoop env d n first r

/-- parser.rs 644-648 -/
def popThrough (n : Nat) : List Nat → List Nat := popTo fun i => decide (i = n)

/-- parser.rs 623-662 -/
def foreignEnd (env : Env) (n : Str) : M Next := fun s =>
  match s.opened.getLast? with
  | none => some (.done, s)
  | some first => match foreignEndLoop env s.doc n first s.opened with
    | .nothing => some (.done, s)
    | .upTo x => some (.done, { s with opened := popThrough x s.opened })
    | .html => processHtml env (.endTag n) s
    | .outOfRange => none

/-- parser.rs 493-685 (a `script` end tag pops the current node, as a self-closing `script` does) -/
def processForeign (env : Env) (t : Token) : M Next :=
  match t with
  | .text v =>
    if isMixed v then fin (putBack (splitMixed v))
    else if isNull v then fin (insertText ['�'])
    else if isBlank v then fin (insertText v)
    else fin (do
      insertText v
      noFrameset)
  | .comment v => fin (insertComment v)
  | .doctype _ _ _ _ => ignore
  | .startTag n sc as =>
    if oneOf n breakout then unexpectedHtml env t
    else if is n "font" && as.any (fun kv => oneOf kv.1 ["color", "face", "size"]) then unexpectedHtml env t
    else foreignStart env n sc as
  | .endTag n =>
    if oneOf n ["br", "p"] then unexpectedHtml env t
    else if is n "script" then fin pop
    else foreignEnd env n
  | .eof => ignore

/-! ## The main loop -/

/-- parser.rs 3868-3910: foreign content? -/
def isForeign (s : St) (t : Token) : Bool :=
  let a := adjustedCurrent s
  let space := (ns s.doc a).getD htmlNs
  let startNamed : String → Bool := fun k => match t with
    | .startTag n _ _ => is n k
    | _ => false
  let text : Bool := match t with
    | .text _ => true
    | _ => false
  let start : Bool := match t with
    | .startTag _ _ _ => true
    | _ => false
  if s.opened.isEmpty then false
  else if space = htmlNs then false
  else if mathPoint s.doc a && (!startNamed "mglyph" && !startNamed "malignmark") then false
  else if mathPoint s.doc a && text then false
  else if decide (space = mathNs) && is (tag s.doc a) "annotation-xml" && startNamed "svg" then false
  else if htmlPoint s.doc a && start then false
  else if htmlPoint s.doc a && text then false
  else if t = .eof then false
  else true

/-- The parser in its loop: its state, the token to process again (with the dispatcher's choice) if there is one, and the tokens
still to come from the tokenizer. -/
structure Loop where
  st : St
  again : Option (Token × Bool)
  input : List Token

/-- parser.rs 3847-3854: the next token; after the last one the tokenizer has only the end of the file -/
def Loop.fetch (l : Loop) : Token × Loop :=
  match l.st.queue with
  | t :: q => (t, { l with st := { l.st with queue := q } })
  | [] => match l.input with
    | t :: r => (t, { l with input := r, st := { l.st with switch := none } })
    | [] => (.eof, l)

/-- what is processed next: a token, the dispatcher's choice, and the rest -/
def Loop.next (l : Loop) : (Token × Bool) × Loop :=
  match l.again with
  | some x => (x, { l with again := none })
  | none => let f := l.fetch; ((f.1, isForeign f.2.st f.1), f.2)

/-- parser.rs 476-483 -/
def dispatch (env : Env) (x : Token × Bool) : M Next := if x.2 then processForeign env x.1 else processHtml env x.1

/-- One round of the loop in parser.rs 458-487. -/
def Loop.step (env : Env) (l : Loop) : Option Loop :=
  if l.st.finished then some l
  else
    let n := l.next
    (dispatch env n.1 n.2.st).map fun r =>
      { n.2 with st := r.2, again := match r.1 with
        | .done => none
        | .again => some n.1
        | .other t => some (t, n.1.2) }

/-- rounds of the loop -/
def Loop.run (env : Env) (l : Loop) : Nat → Option Loop
  | 0 => some l
  | k + 1 => (Loop.step env l).bind fun l' => Loop.run env l' k

/-- parser.rs 275-312, `init`, for a document -/
def St.new (d : Doc) (quirks : Bool) : St :=
  { doc := d, quirks, mode := .initial, original := .initial, templateModes := [], opened := [], active := [],
    head := none, form := none, framesetOk := true, foster := false, ignoreLf := false, pending := [], context := none,
    queue := [], switch := none, finished := false }

/-- parser.rs 433-452, `parse_document` -/
def St.document : St := St.new Doc.new false

/-- parser.rs 355-424, `parse_fragment`: up to the main loop.  (The loop of 413-423 looks at the name of the context node only,
so the form is the context node or there is none.) -/
def St.fragment (d : Doc) (quirks : Bool) (context : Nat) : Option St :=
  (((do
    let n ← dom (.createElement "html".toList htmlNs [])
    insertAt n (.lastChild 0)
    push n
    whenM (fun s => is (tag s.doc context) "template") (upd fun s => { s with templateModes := [.inTemplate] })
    reset
    whenM (fun s => is (tag s.doc context) "form") (setForm (some context))) : M Unit)
    { St.new d quirks with context := some context }).map (·.2)

end Verif.TreeBuild
