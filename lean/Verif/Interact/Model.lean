/-! # Focus and hover

Model of the pointer and focus handling of a browsing context,
`crates/gosub_engine/src/engine/context.rs` 51-112, 753-1004, 1315-1417 and
`crates/gosub_engine/src/engine/tab/worker.rs` 1144-1176. The hit test is a parameter: an event of the
pointer comes with the node and the layout element under it. Coordinates (`f64`) are integers. -/

namespace Verif.Interact

/-- A document as these functions see it. `height` bounds the depth of the tree and is only used to
make the walks towards the root end. `index` is `trim().parse::<i32>()`; `sensitive` is
`hover_matches` (context.rs:53-75), whether a `:hover` rule could touch the node. -/
structure Doc where
  root : Nat
  children : Nat → List Nat
  parent : Nat → Option Nat
  isElement : Nat → Bool
  isText : Nat → Bool
  tag : Nat → Option String
  attr : Nat → String → Option String
  index : String → Option Int
  sensitive : Nat → Bool
  height : Nat

/-- `eq_ignore_ascii_case`. -/
def eqNoCase (a b : String) : Bool := a.toList.map Char.toLower == b.toList.map Char.toLower

/-- The value of `contenteditable` that makes an element editable (context.rs:86-88, 108-110). -/
def editable (d : Doc) (n : Nat) : Bool :=
  match d.attr n "contenteditable" with
  | some v => v == "" || eqNoCase v "true"
  | none => false

/-- `is_text_input` (context.rs:77-90). -/
def isTextInput (d : Doc) (n : Nat) : Bool :=
  match d.tag n with
  | some t =>
    if t = "textarea" then true
    else if t = "input" then
      match d.attr n "type" with
      | some ty => !(["button", "submit", "reset", "checkbox", "radio", "range", "color", "file", "image",
          "hidden"].any (eqNoCase ty))
      | none => true
    else editable d n
  | none => editable d n

/-- `is_focusable` (context.rs:95-112). -/
def isFocusable (d : Doc) (n : Nat) : Bool :=
  if !d.isElement n || (d.attr n "disabled").isSome then false
  else match d.attr n "tabindex" with
    | some s => match d.index s with
      | some i => decide (0 ≤ i)
      | none => false
    | none =>
      match d.tag n with
      | some t =>
        if t = "a" ∨ t = "area" then (d.attr n "href").isSome
        else if t = "input" then
          match d.attr n "type" with
          | some ty => !eqNoCase ty "hidden"
          | none => true
        else if t = "textarea" ∨ t = "select" ∨ t = "button" then true
        else editable d n
      | none => editable d n

/-! ## Focus -/

/-- The loop of `focusable_elements` (context.rs:805-822), for at most so many turns: the stack has its
top first. -/
def collect (d : Doc) : Nat → List Nat → List Nat → Option (List Nat)
  | _, [], out => some out
  | 0, _ :: _, _ => none
  | k + 1, n :: stack, out =>
    collect d k ((d.children n).reverse.foldl (fun s c => c :: s) stack)
      (if isFocusable d n then out ++ [n] else out)

/-- `focusable_elements` (context.rs:805-822). -/
def focusableElements (d : Doc) (turns : Nat) : Option (List Nat) := collect d turns [d.root] []

/-- `Iterator::position` of a node. -/
def position (n : Nat) : List Nat → Option Nat
  | [] => none
  | x :: xs => if x = n then some 0 else (position n xs).map (· + 1)

/-- `focus_step` (context.rs:787-803), for the list of focusable elements: the new focus. -/
def focusStep (order : List Nat) (cur : Option Nat) (backwards : Bool) : Option Nat :=
  if order.isEmpty then none
  else match cur.bind (fun c => position c order) with
    | some pos =>
      if backwards then order[(pos + order.length - 1) % order.length]?
      else order[(pos + 1) % order.length]?
    | none => if backwards then order.getLast? else order[0]?

/-- The nodes that a walk towards the root visits, as all the loops over `doc.parent` do
(context.rs:776-784, 862-880, 917-927, 957-977; document_impl.rs:398-404). -/
def upTo (d : Doc) : Nat → Nat → List Nat
  | 0, n => [n]
  | k + 1, n => n :: (match d.parent n with
    | some p => upTo d k p
    | none => [])

def up (d : Doc) (n : Nat) : List Nat := upTo d d.height n

/-- `focus_at` (context.rs:771-785), for the node under the point. -/
def focusAt (d : Doc) (leaf : Option Nat) : Option Nat :=
  leaf.bind (fun l => (up d l).find? (isFocusable d))

/-! ## Hover -/

inductive Cursor where
  | default | text | pointer
deriving DecidableEq, Repr

structure Rect where
  x : Int
  y : Int
  width : Int
  height : Int
deriving DecidableEq, Repr

/-- The walk of `update_hover` (context.rs:957-977), from a node with what has been found so far: the
link, whether the chain is sensitive, and the cursor. -/
def walk (d : Doc) : List Nat → Option String → Bool → Cursor → Option String × Bool × Cursor
  | [], link, sens, cur => (link, sens, cur)
  | n :: ns, link, sens, cur =>
    let sens := sens || d.sensitive n
    let found := if link.isNone && d.tag n == some "a" then d.attr n "href" else none
    let link' := if found.isSome then found else link
    let cur := if found.isSome then .pointer else cur
    let cur := if cur ≠ .pointer && isTextInput d n then .text else cur
    if sens && link'.isSome then (link', sens, cur)
    else walk d ns link' sens cur

/-- The part of a browsing context that hover uses (context.rs:171-191), the nodes that the document
takes as hovered (`hovered_nodes`), and for each node whose style is in the cache of the pipeline
document whether it was computed as hovered. -/
structure St where
  leaf : Option Nat
  lei : Option Nat
  oldLei : Option Nat
  dirtyNodes : List Nat
  sensitive : Bool
  link : Option String
  cursor : Cursor
  hoverDirty : Bool
  hovered : List Nat
  cache : Nat → Option Bool

/-- A new context (context.rs:231-240). -/
def start : St := ⟨none, none, none, [], false, none, .default, false, [], fun _ => none⟩

/-- The chain of a leaf. -/
def chain (d : Doc) : Option Nat → List Nat
  | some l => up d l
  | none => []

/-- `update_hover` (context.rs:891-1004), for the node and the layout element under the pointer. The
nodes are collected without repetition in the code. -/
def updateHover (d : Doc) (s : St) (leaf lei : Option Nat) : St × Bool × Bool :=
  if leaf = s.leaf then (s, false, false)
  else
    let cur0 : Cursor := match leaf with
      | some l => if d.isText l then .text else .default
      | none => .default
    let (link, sens, cur) := walk d (chain d leaf) none false cur0
    let visual := s.sensitive || sens
    ({ s with
        leaf := leaf, lei := lei, oldLei := s.lei,
        dirtyNodes := chain d s.leaf ++ chain d leaf,
        sensitive := sens, link := link, cursor := cur,
        hovered := if visual then chain d leaf else s.hovered,
        hoverDirty := if visual then true else s.hoverDirty },
     visual, link != s.link)

/-- Two rectangles overlap (context.rs:1383-1386). -/
def overlaps (t r : Rect) : Bool :=
  t.x < r.x + r.width && t.x + t.width > r.x && t.y < r.y + r.height && t.y + t.height > r.y

/-- The union of two rectangles (context.rs:1357-1363). -/
def union (u r : Rect) : Rect :=
  let x0 := min u.x r.x
  let y0 := min u.y r.y
  let x1 := max (u.x + u.width) (r.x + r.width)
  let y1 := max (u.y + u.height) (r.y + r.height)
  ⟨x0, y0, x1 - x0, y1 - y0⟩

/-- The region that is repainted (context.rs:1349-1367): the union of the boxes of the old and the new
hovered layout elements. -/
def hoverRect (box : Nat → Option Rect) (old new : Option Nat) : Option Rect :=
  match old.bind box, new.bind box with
  | some a, some b => some (union a b)
  | some a, none => some a
  | none, some b => some b
  | none, none => none

/-- The tiles that a hover repaint redraws (context.rs:1378-1399). -/
def redrawn (box : Nat → Option Rect) (tiles : List Rect) (s : St) : List Rect :=
  match hoverRect box s.oldLei s.lei with
  | some r => tiles.filter (fun t => overlaps t r)
  | none => []

/-- The hover repaint (context.rs:485-528, 1378-1417): the styles of the dirty nodes are forgotten if
some tile is redrawn, and painting computes the styles of the nodes in those tiles, `painted`, unless
they are in the cache. -/
def repaint (box : Nat → Option Rect) (tiles : List Rect) (painted : List Nat) (s : St) : St :=
  if !s.hoverDirty then s
  else
    let cache := if (redrawn box tiles s).isEmpty then s.cache
      else fun n => if s.dirtyNodes.contains n then none else s.cache n
    { s with
        hoverDirty := false,
        cache := fun n => match cache n with
          | some b => some b
          | none => if painted.contains n then some (s.hovered.contains n) else none }

/-- A full rebuild (context.rs:372-397): the styles are computed anew, for the nodes `painted`. -/
def rebuild (painted : List Nat) (s : St) : St :=
  { s with hoverDirty := false,
           cache := fun n => if painted.contains n then some (s.hovered.contains n) else none }

/-- The link that a click of the left button opens (worker.rs:1159-1175), wherever the click is. -/
def clickLink (s : St) : Option String := s.link

/-- One step of the walk of `hit_test` (context.rs:857-864). -/
def hitStep (d : Doc) (link : Option String) (n : Nat) : Option String :=
  if link.isNone && d.tag n == some "a" then
    (match d.attr n "href" with
     | some h => some h
     | none => link)
  else link

/-- `hit_test` (context.rs:827-882): the link at a point, before it is resolved. -/
def hitLink (d : Doc) (leaf : Option Nat) : Option String := (chain d leaf).foldl (hitStep d) none

end Verif.Interact
