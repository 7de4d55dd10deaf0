import Verif.Util

/-!
# Bookmarks and visited pages

Model of gosub_engine/src/engine/places.rs: `MemoryPlaces` and `SqlitePlaces`.

Simplifications: each call holds the mutex, or is a single SQL statement, so a call is one step; the time `now_secs()`
is an argument of the call; `u64` counters do not overflow; a failing database call (no connection, disk error),
which drops the call, is not modelled; times are below 2^63, so `as i64` keeps them.
`char::to_lowercase` over Unicode is a parameter `low` of the in-memory store.
SQLite is modelled by what its documentation says of the statements used: a table with a primary key on `url`,
`INSERT … ON CONFLICT(url) DO UPDATE`, `DELETE`, `LIKE … ESCAPE` (case-insensitive in ASCII only, patterns over 50000
bytes are an error), `length` (characters before the first NUL), `ORDER BY` (rows with equal keys in any
order), `LIMIT` (negative: no limit).
-/
namespace Verif.Places

/-- places.rs 18-23 -/
structure Bookmark where
  url : Str
  title : Str
  createdAt : Nat
deriving DecidableEq, Repr

/-- places.rs 27-33 -/
structure VisitedPage where
  url : Str
  title : Str
  visitCount : Nat
  lastVisit : Nat
deriving DecidableEq, Repr

/-- places.rs 36-50: the calls that change a store, with the time `now_secs()` (54-59) they are made at. -/
inductive Call where
  | addBookmark (url title : Str) (now : Nat)
  | removeBookmark (url : Str)
  | recordVisit (url title : Str) (now : Nat)
  | clearHistory
deriving DecidableEq, Repr

/-! ## In memory -/

/-- places.rs 70-73 -/
structure MemoryInner where
  bookmarks : List Bookmark
  visits : List VisitedPage
deriving DecidableEq, Repr

/-- places.rs 76-78, `MemoryPlaces::new` -/
def MemoryInner.new : MemoryInner := ⟨[], []⟩

/-- `iter_mut().find(p)`, then `f` on the element found; `none` when there is none -/
def updFirst {α : Type} (p : α → Bool) (f : α → α) : List α → Option (List α)
  | [] => none
  | a :: l => if p a then some (f a :: l) else (updFirst p f l).map (a :: ·)

/-- places.rs 82-93 -/
def MemoryInner.addBookmark (m : MemoryInner) (url title : Str) (now : Nat) : MemoryInner :=
  match updFirst (fun b => decide (b.url = url)) (fun b => { b with title := title }) m.bookmarks with
  | some bs => { m with bookmarks := bs }
  | none => { m with bookmarks := m.bookmarks ++ [⟨url, title, now⟩] }

/-- places.rs 95-97 -/
def MemoryInner.removeBookmark (m : MemoryInner) (url : Str) : MemoryInner :=
  { m with bookmarks := m.bookmarks.filter fun b => decide (b.url ≠ url) }

/-- places.rs 99-101 -/
def MemoryInner.isBookmarked (m : MemoryInner) (url : Str) : Bool := m.bookmarks.any fun b => decide (b.url = url)

/-- places.rs 110-114, an entry visited again -/
def VisitedPage.again (title : Str) (now : Nat) (v : VisitedPage) : VisitedPage :=
  { v with
    visitCount := v.visitCount + 1
    lastVisit := now
    title := if title = [] then v.title else title }

/-- places.rs 107-123 -/
def MemoryInner.recordVisit (m : MemoryInner) (url title : Str) (now : Nat) : MemoryInner :=
  match updFirst (fun v => decide (v.url = url)) (VisitedPage.again title now) m.visits with
  | some vs => { m with visits := vs }
  | none => { m with visits := m.visits ++ [⟨url, title, 1, now⟩] }

/-- places.rs 146-148 -/
def MemoryInner.clearHistory (m : MemoryInner) : MemoryInner := { m with visits := [] }

/-- A call on the in-memory store. -/
def MemoryInner.call (m : MemoryInner) : Call → MemoryInner
  | .addBookmark u t n => m.addBookmark u t n
  | .removeBookmark u => m.removeBookmark u
  | .recordVisit u t n => m.recordVisit u t n
  | .clearHistory => m.clearHistory

/-- `str::contains` -/
def contains : Str → Str → Bool
  | [], q => q.isEmpty
  | c :: s, q => q.isPrefixOf (c :: s) || contains s q

/-- places.rs 134-138 -/
def memHit (low : Str → Str) (q : Str) (v : VisitedPage) : Bool :=
  (low q).isEmpty || contains (low v.url) (low q) || contains (low v.title) (low q)

/-- places.rs 141, the order of `sort_by_key(Reverse((visit_count, last_visit)))`: `a` need not come after `b` -/
def rankLe (a b : VisitedPage) : Bool :=
  decide (b.visitCount < a.visitCount) || (decide (b.visitCount = a.visitCount) && decide (b.lastVisit ≤ a.lastVisit))

/-- places.rs 125-144 -/
def MemoryInner.queryVisited (low : Str → Str) (m : MemoryInner) (q : Str) (limit : Nat) : List VisitedPage :=
  (isort rankLe (m.visits.filter (memHit low q))).take limit

/-! ## SQLite -/

/-- places.rs 184-196: the rows of the two tables, oldest insertion first. -/
structure Db where
  bookmarks : List Bookmark
  visits : List VisitedPage

/-- places.rs 179-200 on a new file -/
def Db.new : Db := ⟨[], []⟩

/-- `INSERT … ON CONFLICT(url) DO UPDATE`: the row with the key is changed by `f`, or `row` is inserted. -/
def upsert {α : Type} (key : α → Str) (row : α) (f : α → α) (t : List α) : List α :=
  if t.any (fun r => decide (key r = key row)) then t.map fun r => if key r = key row then f r else r
  else t ++ [row]

/-- what the C interface reads of a text: up to the first NUL -/
def cstr (s : Str) : Str := s.takeWhile (· ≠ '\x00')

/-- places.rs 218-227 -/
def Db.addBookmark (d : Db) (url title : Str) (now : Nat) : Db :=
  { d with bookmarks := upsert Bookmark.url ⟨url, title, now⟩ (fun b => { b with title := title }) d.bookmarks }

/-- places.rs 229-234 -/
def Db.removeBookmark (d : Db) (url : Str) : Db :=
  { d with bookmarks := d.bookmarks.filter fun b => decide (b.url ≠ url) }

/-- places.rs 236-240 -/
def Db.isBookmarked (d : Db) (url : Str) : Bool := d.bookmarks.any fun b => decide (b.url = url)

/-- places.rs 259-271; `length(?2) > 0` looks at the text before a NUL -/
def Db.recordVisit (d : Db) (url title : Str) (now : Nat) : Db :=
  let again : VisitedPage → VisitedPage := fun v =>
    ⟨v.url, if 0 < (cstr title).length then title else v.title, v.visitCount + 1, now⟩
  { d with visits := upsert VisitedPage.url ⟨url, title, 1, now⟩ again d.visits }

/-- places.rs 296-301 -/
def Db.clearHistory (d : Db) : Db := { d with visits := [] }

/-- A call on the SQLite store. -/
def Db.call (d : Db) : Call → Db
  | .addBookmark u t n => d.addBookmark u t n
  | .removeBookmark u => d.removeBookmark u
  | .recordVisit u t n => d.recordVisit u t n
  | .clearHistory => d.clearHistory

/-- places.rs 206-211, one character -/
def escapeChar (c : Char) : Str := if c = '\\' ∨ c = '%' ∨ c = '_' then ['\\', c] else [c]

/-- places.rs 203-214 -/
def likePattern (q : Str) : Str := '%' :: (q.flatMap escapeChar ++ ['%'])

/-- bytes of a text in UTF-8 -/
def utf8Len (s : Str) : Nat := (s.map Char.utf8Size).sum

/-- SQLite's `text LIKE pattern ESCAPE '\'` on texts without NUL (`patternCompare` in SQLite's func.c): `%` any
characters, `_` one character, an escaped character itself, a trailing escape matches nothing. -/
def likeMatch : Str → Str → Bool
  | [], s => s.isEmpty
  | c :: p, s =>
    if c = '%' then
      likeMatch p s || (match s with
        | [] => false
        | _ :: s' => likeMatch (c :: p) s')
    else match s with
      | [] => false
      | x :: s' =>
        if c = '_' then likeMatch p s'
        else if c = '\\' then match p with
          | [] => false
          | e :: p' => decide (lowerChar x = lowerChar e) && likeMatch p' s'
        else decide (lowerChar x = lowerChar c) && likeMatch p s'
termination_by p s => (p.length, s.length)

/-- places.rs 278, the `WHERE` clause for a row -/
def sqlHit (pattern : Str) (v : VisitedPage) : Bool :=
  decide (pattern = ['%', '%']) || likeMatch (cstr pattern) (cstr v.url) || likeMatch (cstr pattern) (cstr v.title)

/-- `LIMIT ?2` with `limit as i64`: at 2^63 and above the number is negative, no limit -/
def sqlLimit (limit : Nat) (rows : List VisitedPage) : List VisitedPage :=
  if limit < 2 ^ 63 then rows.take limit else rows

/-- places.rs 273-294.  `order` is how SQLite orders the rows. A pattern over 50000 bytes
(SQLITE_MAX_LIKE_PATTERN_LENGTH) fails the statement, and `rows.flatten()` drops the error. -/
def Db.queryVisited (order : List VisitedPage → List VisitedPage) (d : Db) (q : Str) (limit : Nat) : List VisitedPage :=
  if 50000 < utf8Len (cstr (likePattern q)) then []
  else sqlLimit limit (order (d.visits.filter (sqlHit (likePattern q))))

/-- `a ≤ b` for texts in SQLite's `BINARY` collation: code points from the left -/
def strLe : Str → Str → Bool
  | [], _ => true
  | _ :: _, [] => false
  | a :: s, b :: t => decide (a.toNat < b.toNat) || (decide (a.toNat = b.toNat) && strLe s t)

/-- places.rs 244, `ORDER BY created_at, url` -/
def bookmarkLe (a b : Bookmark) : Bool :=
  decide (a.createdAt < b.createdAt) || (decide (a.createdAt = b.createdAt) && strLe a.url b.url)

/-- places.rs 242-257; the keys are distinct, so the order is determined -/
def Db.listBookmarks (d : Db) : List Bookmark := isort bookmarkLe d.bookmarks

end Verif.Places
