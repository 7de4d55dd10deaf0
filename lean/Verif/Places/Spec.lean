import Verif.Places.Model

/-!
# What is claimed of bookmarks and visited pages

From the calls made to a store, without its data.
-/
namespace Verif.Places

/-- The in-memory store after the calls. -/
def mem (h : List Call) : MemoryInner := h.foldl MemoryInner.call .new

/-- The SQLite store after the calls. -/
def sql (h : List Call) : Db := h.foldl Db.call .new

/-- The calls after the last `clearHistory`. -/
def sinceClear : List Call → List Call
  | [] => []
  | c :: h => if Call.clearHistory ∈ h then sinceClear h else if c = .clearHistory then h else c :: h

/-- The visits of `u` among the calls, oldest first: title and time. -/
def visitsTo (u : Str) (h : List Call) : List (Str × Nat) :=
  h.filterMap fun c => match c with
    | .recordVisit u' t n => if u' = u then some (t, n) else none
    | _ => none

/-- The last title given that is not empty; empty when none is. -/
def lastTitle (l : List (Str × Nat)) : Str := ((l.map Prod.fst).filter (· ≠ [])).getLast?.getD []

/-- What is known of `u` after the calls `h`: nothing when there was no visit since the last clearing, otherwise the
number of visits, the time of the last one, and the last title that is not empty. -/
def visited (h : List Call) (u : Str) : Option VisitedPage :=
  match (visitsTo u (sinceClear h)).getLast? with
  | none => none
  | some (_, n) => some ⟨u, lastTitle (visitsTo u (sinceClear h)), (visitsTo u (sinceClear h)).length, n⟩

/-- the rank of a page -/
def rank (v : VisitedPage) : Nat × Nat := (v.visitCount, v.lastVisit)

/-- `a` ranks above `b`: more visits, or as many and a later one. -/
def Better (a b : VisitedPage) : Prop :=
  b.visitCount < a.visitCount ∨ (b.visitCount = a.visitCount ∧ b.lastVisit < a.lastVisit)

/-- `q` occurs in `s`. -/
def Occurs (q s : Str) : Prop := ∃ a b, s = a ++ q ++ b

/-- `r` are the `limit` best-ranked of the pages known after `h` that satisfy `hit`, best first. -/
structure IsTop (h : List Call) (hit : VisitedPage → Prop) (limit : Nat) (r : List VisitedPage) : Prop where
  /-- only known pages that match -/
  sound : ∀ v ∈ r, visited h v.url = some v ∧ hit v
  /-- each page once -/
  distinct : (r.map VisitedPage.url).Nodup
  /-- best first -/
  sorted : r.Pairwise fun a b => ¬ Better b a
  /-- not too many -/
  bounded : r.length ≤ limit
  /-- a matching page is left out only when `limit` pages no worse than it are there -/
  complete : ∀ u v, visited h u = some v → hit v → v ∈ r ∨ (r.length = limit ∧ ∀ w ∈ r, ¬ Better v w)

/-- The calls after the last removal of `u`. -/
def sinceRemoved (u : Str) : List Call → List Call
  | [] => []
  | c :: h => if Call.removeBookmark u ∈ h then sinceRemoved u h else if c = .removeBookmark u then h else c :: h

/-- The additions of `u` among the calls, oldest first: title and time. -/
def additions (u : Str) (h : List Call) : List (Str × Nat) :=
  h.filterMap fun c => match c with
    | .addBookmark u' t n => if u' = u then some (t, n) else none
    | _ => none

/-- The bookmark of `u` after the calls `h`: none when it was not added since it was last removed, otherwise with the
time of the first addition since then and the title of the last. -/
def bookmarked (h : List Call) (u : Str) : Option Bookmark :=
  match (additions u (sinceRemoved u h)).head?, (additions u (sinceRemoved u h)).getLast? with
  | some (_, n), some (t, _) => some ⟨u, t, n⟩
  | _, _ => none

/-- The times of the calls never go back. -/
def ClockForward (h : List Call) : Prop :=
  (h.filterMap fun c => match c with
    | .addBookmark _ _ n => some n
    | _ => none).Pairwise (· ≤ ·)

/-- A way SQLite may order the rows of the query: by visits, then by time, rows that agree in both in any order. -/
structure ValidOrder (order : List VisitedPage → List VisitedPage) : Prop where
  perm : ∀ l, (order l).Perm l
  sorted : ∀ l, (order l).Pairwise fun a b => ¬ Better b a

/-- Only ASCII characters other than NUL. -/
def Ascii (s : Str) : Prop := ∀ c ∈ s, 0 < c.toNat ∧ c.toNat < 128

/-- No NUL character. -/
def NoNul (s : Str) : Prop := '\x00' ∉ s

/-- Lower-casing as Unicode has it on ASCII text. -/
def LowAscii (low : Str → Str) : Prop := ∀ s, Ascii s → low s = lower s

/-- The titles and URLs of the recorded visits satisfy `p`. -/
def VisitTexts (p : Str → Prop) (h : List Call) : Prop :=
  ∀ u t n, Call.recordVisit u t n ∈ h → p u ∧ p t

end Verif.Places
