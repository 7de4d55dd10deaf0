import Verif.Util

/-!
Model of the per-tab session history, `/repo/crates/gosub_engine/src/engine/tab/history.rs`.

Conventions: a `HistoryEntryId` is a `Nat` (index into `entries`), a URL is the string of the
parsed URL.  Every indexing `self.entries[id.0]` of the code may panic; the model's functions
return `none` for a panic, so that "never panics" is a theorem.
-/
set_option linter.unusedVariables false

namespace Verif.History

/-- history.rs 26-40 `HistoryEntry`. -/
structure Entry where
  url : Str
  title : Option Str
  scroll : Int × Int
  navigable : Bool
  parent : Option Nat
  children : List Nat
  preferredChild : Option Nat
deriving DecidableEq, Repr

/-- history.rs 65-68 `History`. -/
structure Hist where
  entries : List Entry
  current : Option Nat
deriving DecidableEq, Repr

/-- history.rs 64: the derived `Default`. -/
def init : Hist := ⟨[], none⟩

/-- `self.entries[id] = f(self.entries[id])`, the `&mut` indexing used at 85-87, 97, 124, 131, 194,
208; `none` is the out-of-bounds panic. -/
def modifyAt (es : List Entry) (id : Nat) (f : Entry → Entry) : Option (List Entry) :=
  if id < es.length then some (es.modify id f) else none

/-- `if let Some(cur) = self.current { self.entries[cur.0] … }`, the shape shared by 84-88, 96-98,
123-125, 130-132 and 193-195. -/
def modifyCurrent (es : List Entry) (cur : Option Nat) (f : Entry → Entry) : Option (List Entry) :=
  match cur with
  | none => some es
  | some c => modifyAt es c f

/-- history.rs 73-91 `push`; returns the new state and the new entry's id. -/
def push (h : Hist) (url : Str) (title : Option Str) : Option (Hist × Nat) :=
  let id := h.entries.length
  let es := h.entries ++ [⟨url, title, (0, 0), true, h.current, [], none⟩]
  match modifyCurrent es h.current
      (fun p => { p with children := p.children ++ [id], preferredChild := some id }) with
  | none => none
  | some es => some (⟨es, some id⟩, id)

/-- history.rs 95-99 `replace_current_url`. -/
def replaceCurrentUrl (h : Hist) (url : Str) : Option Hist :=
  (modifyCurrent h.entries h.current (fun e => { e with url := url })).map (⟨·, h.current⟩)

/-- history.rs 122-126 `set_current_title`. -/
def setCurrentTitle (h : Hist) (t : Option Str) : Option Hist :=
  (modifyCurrent h.entries h.current (fun e => { e with title := t })).map (⟨·, h.current⟩)

/-- history.rs 129-133 `set_current_scroll`. -/
def setCurrentScroll (h : Hist) (x y : Int) : Option Hist :=
  (modifyCurrent h.entries h.current (fun e => { e with scroll := (x, y) })).map (⟨·, h.current⟩)

/-- history.rs 138-143: the `while` loop of `back_target`.  Fuel bounds the number of iterations;
running out of fuel (a loop that would never end) also gives `none`. -/
def backLoop (es : List Entry) : Nat → Option Nat → Option (Option Nat)
  | _, none => some none
  | 0, some _ => none
  | fuel + 1, some id =>
    match es[id]? with
    | none => none
    | some e => if e.navigable then some (some id) else backLoop es fuel e.parent

/-- history.rs 136-145 `back_target`. -/
def backTarget (h : Hist) : Option (Option Nat) :=
  match h.current with
  | none => some none
  | some c =>
    match h.entries[c]? with
    | none => none
    | some e => backLoop h.entries h.entries.length e.parent

/-- `slice::swap(0, pos)` of 161. -/
def swap0 (l : List Nat) (pos : Nat) : List Nat :=
  match l, l[pos]? with
  | a :: rest, some x => ((a :: rest).set 0 x).set pos a
  | l, _ => l

/-- history.rs 153-158: the children filtered on `navigable`; `none` when an id is out of bounds. -/
def navigableChildren (es : List Entry) : List Nat → Option (List Nat)
  | [] => some []
  | c :: cs =>
    match es[c]?, navigableChildren es cs with
    | some e, some r => some (if e.navigable then c :: r else r)
    | _, _ => none

/-- history.rs 159-163: the preferred child is swapped to the front. -/
def preferFirst (out : List Nat) : Option Nat → List Nat
  | none => out
  | some pref =>
    match out.findIdx? (· == pref) with
    | none => out
    | some pos => swap0 out pos

/-- history.rs 148-165 `forward_targets`. -/
def forwardTargets (h : Hist) : Option (List Nat) :=
  match h.current with
  | none => some []
  | some c =>
    match h.entries[c]? with
    | none => none
    | some e => (navigableChildren h.entries e.children).map (preferFirst · e.preferredChild)

/-- history.rs 167-169 `can_go_back`. -/
def canGoBack (h : Hist) : Option Bool := (backTarget h).map Option.isSome

/-- history.rs 171-173 `can_go_forward`. -/
def canGoForward (h : Hist) : Option Bool := (forwardTargets h).map (fun l => !l.isEmpty)

/-- history.rs 176-180 `go_back`. -/
def goBack (h : Hist) : Option (Hist × Option Nat) :=
  match backTarget h with
  | none => none
  | some none => some (h, none)
  | some (some id) => some (⟨h.entries, some id⟩, some id)

/-- history.rs 188-192: which target `go_forward` moves to. -/
def pickForward (targets : List Nat) : Option Nat → Option Nat
  | some id => if id ∈ targets then some id else none
  | none => targets.head?

/-- history.rs 186-198 `go_forward`. -/
def goForward (h : Hist) (entry : Option Nat) : Option (Hist × Option Nat) :=
  match forwardTargets h with
  | none => none
  | some targets =>
    match pickForward targets entry with
    | none => some (h, none)
    | some id =>
      match modifyCurrent h.entries h.current (fun e => { e with preferredChild := some id }) with
      | none => none
      | some es => some (⟨es, some id⟩, some id)

/-- history.rs 202-212 `go_to`. -/
def goTo (h : Hist) (id : Nat) : Option (Hist × Option Nat) :=
  match h.entries[id]? with
  | none => some (h, none)
  | some e =>
    if e.navigable then
      match modifyCurrent h.entries e.parent (fun p => { p with preferredChild := some id }) with
      | none => none
      | some es => some (⟨es, some id⟩, some id)
    else some (h, none)

/-- history.rs 55-61 `HistoryEntrySummary`. -/
structure Summary where
  id : Nat
  url : Str
  title : Option Str
  parent : Option Nat
deriving DecidableEq, Repr

/-- history.rs 44-52 `HistorySnapshot`. -/
structure Snapshot where
  current : Option Nat
  canGoBack : Bool
  forward : List Summary
  entries : List Summary
deriving DecidableEq, Repr

/-- history.rs 215-223: the `summary` closure. -/
def summary (es : List Entry) (id : Nat) : Option Summary :=
  (es[id]?).map (fun e => ⟨id, e.url, e.title, e.parent⟩)

/-- `iter.map(summary).collect()`, panicking when one call does. -/
def summaries (es : List Entry) : List Nat → Option (List Summary)
  | [] => some []
  | i :: is =>
    match summary es i, summaries es is with
    | some s, some r => some (s :: r)
    | _, _ => none

/-- history.rs 214-230 `snapshot`. -/
def snapshot (h : Hist) : Option Snapshot :=
  match canGoBack h, forwardTargets h, summaries h.entries (List.range h.entries.length) with
  | some b, some f, some es => (summaries h.entries f).map (fun f => ⟨h.current, b, f, es⟩)
  | _, _, _ => none

/-- The mutating calls of the API. -/
inductive Op where
  | push (url : Str) (title : Option Str)
  | replaceUrl (url : Str)
  | setTitle (t : Option Str)
  | setScroll (x y : Int)
  | goBack
  | goForward (entry : Option Nat)
  | goTo (id : Nat)
deriving DecidableEq, Repr

/-- One API call. -/
def step (h : Hist) : Op → Option Hist
  | .push u t => (push h u t).map (·.1)
  | .replaceUrl u => replaceCurrentUrl h u
  | .setTitle t => setCurrentTitle h t
  | .setScroll x y => setCurrentScroll h x y
  | .goBack => (goBack h).map (·.1)
  | .goForward e => (goForward h e).map (·.1)
  | .goTo i => (goTo h i).map (·.1)

/-- A sequence of API calls. -/
def run (h : Hist) : List Op → Option Hist
  | [] => some h
  | o :: os =>
    match step h o with
    | none => none
    | some h => run h os

end Verif.History
