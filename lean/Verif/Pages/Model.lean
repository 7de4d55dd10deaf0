
/-! # Internal pages

Model of `crates/gosub_engine/src/engine/internal_pages.rs`: the registry of pages, and the pages that
the engine makes from the history of a tab and from its settings. Strings are lists of characters. -/

namespace Verif.Pages

abbrev Str := List Char

/-! ## The registry -/

/-- `PageRequest` (internal_pages.rs:24-33), as far as the registry uses it. A URL is its host, if any,
and its path. -/
structure Url where
  host : Option Str
  path : Str
deriving DecidableEq

/-- A provider (internal_pages.rs:59): for a request, a page or nothing. -/
abbrev Provider := Url → Option Str

/-- `Registry` (internal_pages.rs:69-74). A map is a list of its entries. -/
structure Registry where
  overrides : List (Str × Provider)
  builtin : List (Str × Provider)

/-- `HashMap::insert`. -/
def put (m : List (Str × Provider)) (k : Str) (v : Provider) : List (Str × Provider) :=
  (k, v) :: m.filter (fun e => e.1 ≠ k)

/-- `HashMap::remove`. -/
def del (m : List (Str × Provider)) (k : Str) : List (Str × Provider) := m.filter (fun e => e.1 ≠ k)

/-- `HashMap::get`. -/
def get (m : List (Str × Provider)) (k : Str) : Option Provider := (m.find? (fun e => e.1 = k)).map (·.2)

/-- `with_builtins` (internal_pages.rs:78-87). -/
def withBuiltins (all : List (Str × Provider)) : Registry :=
  ⟨[], all.foldl (fun m e => put m e.1 e.2) []⟩

/-- `register` (internal_pages.rs:90-92). -/
def Registry.register (r : Registry) (name : Str) (p : Provider) : Registry :=
  { r with overrides := put r.overrides name p }

/-- `unregister` (internal_pages.rs:101-103). -/
def Registry.unregister (r : Registry) (name : Str) : Registry :=
  { r with overrides := del r.overrides name }

/-- `names` (internal_pages.rs:106-112). The sorting is left out. -/
def Registry.names (r : Registry) : List Str :=
  (r.overrides.map (·.1) ++ r.builtin.map (·.1)).foldr (fun n l => if l.contains n then l else n :: l) []

/-- `trim_matches('/')`. -/
def trimSlash (s : Str) : Str := ((s.dropWhile (· == '/')).reverse.dropWhile (· == '/')).reverse

/-- `page_name` (internal_pages.rs:121-123). -/
def pageName (u : Url) : Str := trimSlash (u.host.getD u.path)

/-- `resolve` (internal_pages.rs:127-145). `notFound` is the page for unknown names. -/
def Registry.resolve (r : Registry) (notFound : Url → List Str → Str) (u : Url) : Str :=
  let name := pageName u
  match (get r.overrides name).bind (fun p => p u) with
  | some page => page
  | none =>
    match (get r.builtin name).bind (fun p => p u) with
    | some page => page
    | none => notFound u r.names

/-! ## The pages -/

/-- One character of `escape` (internal_pages.rs:167-175). -/
def escChar (c : Char) : Str :=
  if c = '&' then "&amp;".toList
  else if c = '<' then "&lt;".toList
  else if c = '>' then "&gt;".toList
  else if c = '"' then "&quot;".toList
  else [c]

/-- `escape` (internal_pages.rs:165-177). -/
def esc (s : Str) : Str := s.flatMap escChar

/-- The style sheet of the pages (internal_pages.rs:183-188). -/
def css : Str :=
  ("body{margin:0;padding:32px 40px;font-family:sans-serif;font-size:14px;color:#1c2333;background:#ffffff}" ++
   "h1{font-size:24px;margin:0 0 4px 0} h2{font-size:16px;margin:24px 0 8px 0}" ++
   ".sub{color:#5c6675;margin:0 0 20px 0}" ++
   "table{border-collapse:collapse} td,th{text-align:left;padding:3px 14px 3px 0;vertical-align:top}" ++
   "th{color:#5c6675;font-weight:normal} code{font-family:monospace;font-size:13px}" ++
   "a{color:#1d5fd1} .muted{color:#8a94a6} .cur{font-weight:bold}").toList

/-- `page` (internal_pages.rs:180-193). -/
def page (title body : Str) : Str :=
  "<!DOCTYPE html><html><head><meta charset=\"utf-8\"><title>".toList ++ esc title ++ "</title><style>".toList ++
  css ++ "</style></head><body>".toList ++ body ++ "</body></html>".toList

/-- A number as `Display` writes it. -/
def num (n : Nat) : Str := n.repr.toList

/-- `version` (internal_pages.rs:227-247), for its four rows. -/
def version (rows : List (Str × Str)) : Str :=
  page "Version".toList ("<h1>Version</h1><table>".toList ++
    rows.flatMap (fun r => "<tr><th>".toList ++ esc r.1 ++ "</th><td><code>".toList ++ esc r.2 ++
      "</code></td></tr>".toList) ++
    "</table>".toList)

/-- An entry of a `HistorySnapshot`. -/
structure Entry where
  id : Nat
  parent : Option Nat
  title : Option Str
  url : Str

/-- A row of `history` (internal_pages.rs:257-266). -/
def historyRow (current : Option Nat) (e : Entry) : Str :=
  "<tr".toList ++ (if some e.id = current then " class=\"cur\"".toList else []) ++ "><td>".toList ++ num e.id ++
  "</td><td>".toList ++ (match e.parent with
    | some p => num p
    | none => "–".toList) ++ "</td><td>".toList ++ esc (e.title.getD []) ++
  "</td><td><a href=\"".toList ++ esc e.url ++ "\"><code>".toList ++ esc e.url ++ "</code></a></td></tr>".toList

/-- `history` (internal_pages.rs:249-271). -/
def history (entries : List Entry) (current : Option Nat) : Str :=
  page "Session history".toList
    ("<h1>Session history</h1><p class=\"sub\">This tab, oldest first. Bold is the current entry; the parent column shows the branch structure.</p>".toList ++
     (if entries.isEmpty then "<p class=\"muted\">No entries yet.</p>".toList
      else "<table><tr><th>#</th><th>Parent</th><th>Title</th><th>URL</th></tr>".toList ++
        entries.flatMap (historyRow current) ++ "</table>".toList))

/-- A setting as `config` shows it. -/
structure Setting where
  key : Str
  value : Str
  default : Str
  differs : Bool
  description : Str

/-- A row of `config` (internal_pages.rs:287-294). -/
def configRow (s : Setting) : Str :=
  "<tr".toList ++ (if s.differs then " class=\"cur\"".toList else []) ++ "><td><code>".toList ++ esc s.key ++
  "</code></td><td><code>".toList ++ esc s.value ++ "</code></td><td class=\"muted\"><code>".toList ++ esc s.default ++
  "</code></td><td>".toList ++ esc s.description ++ "</td></tr>".toList

/-- `config` (internal_pages.rs:273-298), for the settings in the order of their keys. -/
def config (settings : List Setting) : Str :=
  page "Engine settings".toList
    ("<h1>Engine settings</h1><p class=\"sub\">Read-only dump of the settings store; bold rows differ from their default.</p><table><tr><th>Key</th><th>Value</th><th>Default</th><th>Description</th></tr>".toList ++
     settings.flatMap configRow ++ "</table>".toList)

/-- `not_found` (internal_pages.rs:300-313): the names are not escaped. -/
def notFound (url : Str) (known : List Str) : Str :=
  page "No such page".toList
    ("<h1>No such internal page</h1><p class=\"sub\"><code>".toList ++ esc url ++
     "</code> is not a page this engine knows.</p><h2>Available</h2><ul>".toList ++
     known.flatMap (fun n => "<li><a href=\"gosub://".toList ++ n ++ "\"><code>gosub://".toList ++ n ++
       "</code></a></li>".toList) ++
     "</ul>".toList)

end Verif.Pages
