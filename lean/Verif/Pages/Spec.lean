import Verif.HtmlTok.Spec
import Verif.Pages.Model

/-! # What internal pages should be: texts in a fixed frame of tags -/

namespace Verif.Pages

open HtmlTok (Token Parser Content)

/-- A start tag with at most one attribute, and an end tag. -/
def tag (n : String) (a : List (String × Str) := []) : Token :=
  .startTag n.toList false (a.map (fun x => (x.1.toList, x.2)))
def close (n : String) : Token := .endTag n.toList

/-- A text as a token: nothing if it is empty. -/
def txt (s : Str) : List Token := if s = [] then [] else [.text s]

/-- Tags with a text before each of them. -/
def frame (l : List (Str × Token)) : List Token := l.flatMap (fun x => txt x.1 ++ [x.2])

/-- A text without markup. -/
def lit (s : String) : Str := s.toList

/-- The tokens of a page with a title and a body. -/
def pageTokens (title : Str) (body : List (Str × Token)) : List Token :=
  [.doctype (some (lit "html")) false none none, tag "html", tag "head", tag "meta" [("charset", lit "utf-8")],
   tag "title", .text title, close "title", tag "style", .text css, close "style", close "head", tag "body"] ++
  frame body ++ [close "body", close "html"]

/-- A row for an entry of the history: its number, that of its parent, its title, and its address as a
link. -/
def historyTags (current : Option Nat) (e : Entry) : List (Str × Token) :=
  [([], if some e.id = current then tag "tr" [("class", lit "cur")] else tag "tr"),
   ([], tag "td"), (num e.id, close "td"),
   ([], tag "td"), ((match e.parent with
     | some p => num p
     | none => lit "–"), close "td"),
   ([], tag "td"), (e.title.getD [], close "td"),
   ([], tag "td"), ([], tag "a" [("href", e.url)]), ([], tag "code"), (e.url, close "code"), ([], close "a"),
   ([], close "td"), ([], close "tr")]

def historyBody (entries : List Entry) (current : Option Nat) : List (Str × Token) :=
  [([], tag "h1"), (lit "Session history", close "h1"), ([], tag "p" [("class", lit "sub")]),
   (lit "This tab, oldest first. Bold is the current entry; the parent column shows the branch structure.", close "p")] ++
  (if entries = [] then [([], tag "p" [("class", lit "muted")]), (lit "No entries yet.", close "p")]
   else
     [([], tag "table"), ([], tag "tr"), ([], tag "th"), (lit "#", close "th"), ([], tag "th"),
      (lit "Parent", close "th"), ([], tag "th"), (lit "Title", close "th"), ([], tag "th"),
      (lit "URL", close "th"), ([], close "tr")] ++
     entries.flatMap (historyTags current) ++ [([], close "table")])

/-- A row for a setting. -/
def configTags (s : Setting) : List (Str × Token) :=
  [([], if s.differs then tag "tr" [("class", lit "cur")] else tag "tr"),
   ([], tag "td"), ([], tag "code"), (s.key, close "code"), ([], close "td"),
   ([], tag "td"), ([], tag "code"), (s.value, close "code"), ([], close "td"),
   ([], tag "td" [("class", lit "muted")]), ([], tag "code"), (s.default, close "code"), ([], close "td"),
   ([], tag "td"), (s.description, close "td"), ([], close "tr")]

def configBody (settings : List Setting) : List (Str × Token) :=
  [([], tag "h1"), (lit "Engine settings", close "h1"), ([], tag "p" [("class", lit "sub")]),
   (lit "Read-only dump of the settings store; bold rows differ from their default.", close "p"),
   ([], tag "table"), ([], tag "tr"), ([], tag "th"), (lit "Key", close "th"), ([], tag "th"),
   (lit "Value", close "th"), ([], tag "th"), (lit "Default", close "th"), ([], tag "th"),
   (lit "Description", close "th"), ([], close "tr")] ++
  settings.flatMap configTags ++ [([], close "table")]

def versionBody (rows : List (Str × Str)) : List (Str × Token) :=
  [([], tag "h1"), (lit "Version", close "h1"), ([], tag "table")] ++
  rows.flatMap (fun r =>
    [([], tag "tr"), ([], tag "th"), (r.1, close "th"), ([], tag "td"), ([], tag "code"), (r.2, close "code"),
     ([], close "td"), ([], close "tr")]) ++
  [([], close "table")]

def notFoundBody (url : Str) (known : List Str) : List (Str × Token) :=
  [([], tag "h1"), (lit "No such internal page", close "h1"), ([], tag "p" [("class", lit "sub")]), ([], tag "code"),
   (url, close "code"), (lit " is not a page this engine knows.", close "p"), ([], tag "h2"),
   (lit "Available", close "h2"), ([], tag "ul")] ++
  known.flatMap (fun n =>
    [([], tag "li"), ([], tag "a" [("href", lit "gosub://" ++ n)]), ([], tag "code"),
     (lit "gosub://" ++ n, close "code"), ([], close "a"), ([], close "li")]) ++
  [([], close "ul")]

/-- The HTML parser switches the tokenizer as the standard says: for `title` and `style`, and for no
start tag outside the list of elements whose content is not ordinary text. -/
structure Usual (p : Parser) : Prop where
  title : ∀ g sc as, p.switch (g ++ [.startTag (lit "title") sc as]) = some .rcdata
  style : ∀ g sc as, p.switch (g ++ [.startTag (lit "style") sc as]) = some .rawtext
  other : ∀ g n sc as, n ∉ ["title", "style", "script", "textarea", "noscript", "iframe", "noembed", "noframes",
    "xmp", "plaintext"].map String.toList → p.switch (g ++ [.startTag n sc as]) = none
  rest : ∀ g k, (∀ n sc as, k ≠ .startTag n sc as) → p.switch (g ++ [k]) = none

/-- An address as the `url` crate writes it: ASCII without NUL. -/
def Address (u : Str) : Prop := ∀ c ∈ u, c.toNat < 128 ∧ c.toNat ≠ 0

/-! ## The registry -/

/-- What the embedder does with the registry. -/
inductive Op where
  | register (name : Str) (p : Provider)
  | unregister (name : Str)

def run (r : Registry) : List Op → Registry
  | [] => r
  | .register n p :: ops => run (r.register n p) ops
  | .unregister n :: ops => run (r.unregister n) ops

def Op.name : Op → Str
  | .register n _ => n
  | .unregister n => n

/-- What the last operation on a name registered. -/
inductive Registered (name : Str) : List Op → Option Provider → Prop where
  | none {ops} : (∀ o ∈ ops, Op.name o ≠ name) → Registered name ops none
  | last {before after p} : (∀ o ∈ after, Op.name o ≠ name) →
      Registered name (before ++ .register name p :: after) (some p)
  | removed {before after} : (∀ o ∈ after, Op.name o ≠ name) →
      Registered name (before ++ .unregister name :: after) none

end Verif.Pages
