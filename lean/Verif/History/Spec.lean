import Verif.History.Model

/-!
Specification vocabulary for C23 and C24.

The properties are stated with the observables of the API: `entry(id)` (`EntryAt`), `current`,
`snapshot`, and the results of the navigation calls.
-/
namespace Verif.History

/-- A history state some sequence of calls leads to. -/
def Reachable (h : Hist) : Prop := ∃ ops, run init ops = some h

/-- `History::entry(id)` is `Some(e)`. -/
def EntryAt (h : Hist) (id : Nat) (e : Entry) : Prop := h.entries[id]? = some e

/-- Calls that rewrite the page recorded in the current entry. -/
def Op.rewrites : Op → Bool
  | .replaceUrl _ | .setTitle _ | .setScroll _ _ => true
  | _ => false

/-- How many pages a call visits for the first time. -/
def Op.visits : Op → Nat
  | .push _ _ => 1
  | _ => 0

/-- Jumps to an arbitrary entry of the history tree. -/
def Op.isJump : Op → Bool
  | .goTo _ => true
  | _ => false

/-- The entry shows the same page: address, title, scroll position and whether it may be navigated
to. -/
def SamePage (a b : Entry) : Prop :=
  a.url = b.url ∧ a.title = b.title ∧ a.scroll = b.scroll ∧ a.navigable = b.navigable

/-- `n` successive calls of `go_back`, all of which must succeed. -/
def backs (h : Hist) : Nat → Option Hist
  | 0 => some h
  | n + 1 =>
    match goBack h with
    | some (h', some _) => backs h' n
    | _ => none

end Verif.History
