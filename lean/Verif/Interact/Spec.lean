import Verif.Interact.Model

/-! # What focus and hover should do -/

namespace Verif.Interact

/-- The nodes below some nodes in document order: a node comes before what is below it, and that before
the next node. -/
inductive Order (d : Doc) : List Nat → List Nat → Prop where
  | nil : Order d [] []
  | cons {n ns l m} : Order d (d.children n) l → Order d ns m → Order d (n :: ns) (n :: (l ++ m))

/-- A node and the nodes above it, up to the root. -/
inductive Chain (d : Doc) : Nat → List Nat → Prop where
  | top {n} : d.parent n = none → Chain d n [n]
  | up {n p l} : d.parent n = some p → Chain d p l → Chain d n (n :: l)

/-- Every node is at most `height` below a root. -/
def Bounded (d : Doc) : Prop := ∀ n, ∃ l, Chain d n l ∧ l.length ≤ d.height + 1

/-- The first element of a list with a property. -/
def FirstWith (P : Nat → Prop) (l : List Nat) (n : Nat) : Prop :=
  ∃ a b, l = a ++ n :: b ∧ P n ∧ ∀ m ∈ a, ¬ P m

/-- Elements that the keyboard can focus: links, form controls, editable regions, and anything with a
`tabindex` that is not negative; a negative one and `disabled` take an element out. -/
def CanFocus (d : Doc) (n : Nat) : Prop :=
  d.isElement n = true ∧ d.attr n "disabled" = none ∧
  ((∃ s i, d.attr n "tabindex" = some s ∧ d.index s = some i ∧ 0 ≤ i) ∨
   (d.attr n "tabindex" = none ∧
    ((d.tag n = some "a" ∧ d.attr n "href" ≠ none) ∨ (d.tag n = some "area" ∧ d.attr n "href" ≠ none) ∨
     (d.tag n = some "input" ∧ ∀ ty, d.attr n "type" = some ty → eqNoCase ty "hidden" = false) ∨
     d.tag n = some "textarea" ∨ d.tag n = some "select" ∨ d.tag n = some "button" ∨
     (d.tag n ≠ some "a" ∧ d.tag n ≠ some "area" ∧ d.tag n ≠ some "input" ∧
      ∃ v, d.attr n "contenteditable" = some v ∧ (v = "" ∨ eqNoCase v "true" = true)))))

/-- The types of `input` that take no text. -/
def noText : List String :=
  ["hidden", "range", "color", "checkbox", "radio", "file", "submit", "image", "reset", "button"]

/-- Elements that text can be typed into: text areas, inputs of a type that takes text, and other
editable elements. -/
def TextInput (d : Doc) (n : Nat) : Prop :=
  d.tag n = some "textarea" ∨
  (d.tag n = some "input" ∧ ∀ ty, d.attr n "type" = some ty → ∀ w ∈ noText, eqNoCase ty w = false) ∨
  (d.tag n ≠ some "textarea" ∧ d.tag n ≠ some "input" ∧
    ∃ v, d.attr n "contenteditable" = some v ∧ (v = "" ∨ eqNoCase v "true" = true))

/-- So many presses of the Tab key. -/
def presses (order : List Nat) (backwards : Bool) : Nat → Option Nat → Option Nat
  | 0, cur => cur
  | k + 1, cur => presses order backwards k (focusStep order cur backwards)

/-- A link. -/
def IsLink (d : Doc) (n : Nat) : Prop := d.tag n = some "a" ∧ ∃ h, d.attr n "href" = some h

/-- The link that a node is in: the address of the nearest link at or above it. -/
def InLink (d : Doc) (leaf : Option Nat) (url : Option String) : Prop :=
  match leaf with
  | none => url = none
  | some n => ∃ l, Chain d n l ∧
      ((∃ k h, FirstWith (IsLink d) l k ∧ d.attr k "href" = some h ∧ url = some h) ∨
       ((∀ k ∈ l, ¬ IsLink d k) ∧ url = none))

/-- Moves of the pointer, and repaints. -/
inductive Ev where
  | move (leaf lei : Option Nat)
  | repaint (painted : List Nat)
  | rebuild (painted : List Nat)

/-- A history. -/
def run (d : Doc) (box : Nat → Option Rect) (tiles : List Rect) : St → List Ev → St
  | s, [] => s
  | s, .move leaf lei :: es => run d box tiles (updateHover d s leaf lei).1 es
  | s, .repaint p :: es => run d box tiles (Interact.repaint box tiles p s) es
  | s, .rebuild p :: es => run d box tiles (Interact.rebuild p s) es

/-- Styles that can depend on hover are those of the hovered nodes. -/
def Fresh (d : Doc) (s : St) : Prop :=
  ∀ n b, d.sensitive n = true → s.cache n = some b → (b = true ↔ n ∈ chain d s.leaf)

/-- A turn of the event loop of a tab: the pointer moves, and a repaint follows before it moves again. -/
structure Turn where
  leaf : Option Nat
  lei : Option Nat
  painted : List Nat

def Turn.events (t : Turn) : List Ev := [.move t.leaf t.lei, .repaint t.painted]

end Verif.Interact
