import Mathlib.Tactic.Common
import Mathlib.Algebra.Order.Field.Rat
import Verif.Map
import Verif.Util

/-!
# Layers

Model of gosub_render_pipeline/src/layering/layer.rs (splitting a layout tree into layers, hit
testing) and of the placement of layers at composite time, gosub_interface/src/render/backend.rs
(`StickyConstraint`, `TileAnchor`, `anchored_tile_pos`).

Simplifications: `f64`/`f32` are exact rationals (no rounding, no NaN, no infinities); `isize` is `Int`; the
locks are left out, the list being built by one thread.  The arena of the layout tree is unfolded into
a finite tree from the root: children missing from the arena are leaves `missing`.  The styles of an
element that are read are fields of the element.
-/
namespace Verif.Layers
open Verif.Map

/-- gosub_render_pipeline/src/common/geo.rs 1-7, `Rect`. -/
structure Rect where
  x : ℚ
  y : ℚ
  width : ℚ
  height : ℚ
deriving DecidableEq

/-- The values of `position` told apart by layer.rs 165-168, 292-303. -/
inductive Position where
  | fixed | sticky | absolute | relative | other
deriving DecidableEq

/-- layouter.rs 141-155, `LayoutElementNode`, with the own styles read in layer.rs 162-196 and
286-311: `opacity` is the own opacity or 1; `zIndex` the own numeric z-index; `cage` the content box
of the parent, if there is one. -/
structure Elem where
  id : Nat
  dom : Nat
  margin : Rect
  cage : Option Rect
  opacity : ℚ
  position : Position
  zIndex : Option Int
  insetTop : Option ℚ
  insetLeft : Option ℚ
  isImg : Bool
deriving DecidableEq

/-- The layout tree from its root down. -/
inductive LTree where
  | missing
  | node (e : Elem) (children : List LTree)

/-- backend.rs 182-198, `StickyConstraint`. -/
structure Sticky where
  insetTop : Option ℚ
  insetLeft : Option ℚ
  natural : Rect
  cage : Rect
deriving DecidableEq

/-- backend.rs 208-230, one axis of `StickyConstraint::offset`. -/
def Sticky.axis (inset : Option ℚ) (natural size cage cageSize scroll : ℚ) : ℚ :=
  match inset with
  | none => 0
  | some top =>
    let naturalVp := natural - scroll
    let want := max (top - naturalVp) 0
    let slack := max ((cage + cageSize) - (natural + size)) 0
    min want slack

/-- backend.rs 206-231, `StickyConstraint::offset`. -/
def Sticky.offset (c : Sticky) (sx sy : ℚ) : ℚ × ℚ :=
  (Sticky.axis c.insetLeft c.natural.x c.natural.width c.cage.x c.cage.width sx,
   Sticky.axis c.insetTop c.natural.y c.natural.height c.cage.y c.cage.height sy)

/-- backend.rs 233-244, `TileAnchor`. -/
inductive Anchor where
  | scroll
  | fixed
  | sticky (c : Sticky)
deriving DecidableEq

/-- backend.rs 249-258, `anchored_tile_pos`. -/
def anchoredPos (px py sx sy : ℚ) (a : Anchor) : ℚ × ℚ :=
  match a with
  | .scroll => (px - sx, py - sy)
  | .fixed => (px, py)
  | .sticky c => (px - sx + (c.offset sx sy).1, py - sy + (c.offset sx sy).2)

/-- layer.rs 34-45, `Layer`. -/
structure Layer where
  layerId : Nat
  order : Int
  opacity : ℚ
  anchor : Anchor
  elements : List Nat
deriving DecidableEq

/-- layer.rs 70-79, `LayerList`, without the layout tree. -/
structure State where
  ids : List Nat
  layers : List (Nat × Layer)
  next : Nat
  grouped : List Nat

/-- layer.rs 162-196, `sticky_constraint`. -/
def stickyConstraint (e : Elem) : Option Sticky :=
  if e.position = .sticky then some ⟨e.insetTop, e.insetLeft, e.margin, e.cage.getD e.margin⟩ else none

/-- layer.rs 203-212, `new_promoted_layer` (with `next_layer_id`, 365-370): the state and the id. -/
def newPromotedLayer (s : State) (order : Int) (opacity : ℚ) (anchor : Anchor) : State × Nat :=
  ({ s with
      ids := s.ids ++ [s.next]
      layers := put s.layers s.next ⟨s.next, order, opacity, anchor, []⟩
      next := s.next + 1 }, s.next)

/-- layer.rs 199-201, `new_layer`. -/
def newLayer (s : State) (order : Int) : State × Nat := newPromotedLayer s order 1 .scroll

/-- layer.rs 230-247, `add_to_layer` (a missing layer leaves the list unchanged). -/
def addToLayer (s : State) (layer el : Nat) : State :=
  { s with layers := upd s.layers layer fun l => { l with elements := l.elements ++ [el] } }

/-- layer.rs 334-336 and 355-357, remembering that an element is faded with its layer. -/
def addGrouped (s : State) (dom : Nat) : State := { s with grouped := dom :: s.grouped }

/-- layer.rs 300-311: the z-index, which counts on positioned elements only. -/
def zOf (e : Elem) : Option Int :=
  match e.position with
  | .other => none
  | _ => e.zIndex

/-- layer.rs 314, the stacking level of an element. -/
def orderOf (e : Elem) (inherited : Int) : Int := (zOf e).getD inherited

/-- layer.rs 318, `compositing`. -/
def compositing (e : Elem) : Bool :=
  decide (e.opacity < 1) || decide (e.position = .fixed) || (stickyConstraint e).isSome

/-- layer.rs 319, the test for promotion. -/
def promoted (e : Elem) (inGroup : Bool) : Bool :=
  compositing e || ((zOf e).isSome && !inGroup)

/-- layer.rs 320, `own_opacity.clamp(0.0, 1.0)`. -/
def clampOpacity (e : Elem) : ℚ := if e.opacity < 0 then 0 else if 1 < e.opacity then 1 else e.opacity

/-- layer.rs 323-329, the anchor of a promoted layer. -/
def anchorOf (e : Elem) : Anchor :=
  match stickyConstraint e with
  | some c => .sticky c
  | none => if e.position = .fixed then .fixed else .scroll

mutual
/-- layer.rs 273-363, `traverse`. -/
def traverse (s : State) (layer : Nat) (t : LTree) (inGroup faded : Bool) (inherited : Int) : State :=
  match t with
  | .missing => s
  | .node e cs =>
    let order := orderOf e inherited
    if promoted e inGroup then
      let out := newPromotedLayer s order (clampOpacity e) (anchorOf e)
      let s := addToLayer out.1 out.2 e.id
      let f := decide (clampOpacity e < 1)
      let s := if f then addGrouped s e.dom else s
      traverseAll s out.2 cs true f order
    else if e.isImg && !inGroup then
      let out := newLayer s order
      let s := addToLayer out.1 out.2 e.id
      traverseAll s layer cs inGroup faded order
    else
      let s := addToLayer s layer e.id
      let s := if inGroup && faded && decide (1 ≤ e.opacity) then addGrouped s e.dom else s
      traverseAll s layer cs inGroup faded order
/-- layer.rs 337-339 and 360-362, the children in order. -/
def traverseAll (s : State) (layer : Nat) (ts : List LTree) (inGroup faded : Bool) (inherited : Int) : State :=
  match ts with
  | [] => s
  | t :: r => traverseAll (traverse s layer t inGroup faded inherited) layer r inGroup faded inherited
end

/-- layer.rs 263, the key of the sort. -/
def sortKey (layers : List (Nat × Layer)) (id : Nat) : Int := ((look layers id).map Layer.order).getD 0

/-- layer.rs 249-264, `generate_layers`, from the empty list made by `LayerList::new` (103-115). -/
def generateLayers (t : LTree) : State :=
  let out := newLayer ⟨[], [], 0, []⟩ 0
  let s := traverse out.1 out.2 t false false 0
  { s with ids := isort (fun a b => decide (sortKey s.layers a ≤ sortKey s.layers b)) s.ids }

/-- painter.rs 178-199, the factor `apply_opacity` puts on the colours of an element: none when the
element is faded with its layer.  Simplification: `opacity` is not inherited, so the computed value read there is the
own one; only solid colours are faded there, the factor is modelled as if every brush were. -/
def elementOpacity (s : State) (e : Elem) : ℚ :=
  if e.dom ∈ s.grouped then 1 else if 1 ≤ e.opacity then 1 else clampOpacity e

/-- layer.rs 146-149, the box test. -/
def boxHit (r : Rect) (x y : ℚ) : Bool :=
  decide (r.x ≤ x) && decide (x < r.x + r.width) && decide (r.y ≤ y) && decide (y < r.y + r.height)

/-- layer.rs 129-136, the viewport point in the space of a layer. -/
def layerPoint (a : Anchor) (vx vy sx sy : ℚ) : ℚ × ℚ :=
  match a with
  | .fixed => (vx, vy)
  | .scroll => (vx + sx, vy + sy)
  | .sticky c => (vx + sx - (c.offset sx sy).1, vy + sy - (c.offset sx sy).2)

/-- layer.rs 138-153, the elements of one layer (given last first). -/
def hitElements (node : Nat → Option Elem) (x y : ℚ) : List Nat → Option Nat
  | [] => none
  | i :: r =>
    match node i with
    | none => hitElements node x y r
    | some e => if boxHit e.margin x y then some i else hitElements node x y r

/-- layer.rs 121-156, the layers (given last first). -/
def hitLayers (node : Nat → Option Elem) (layers : List (Nat × Layer)) (vx vy sx sy : ℚ) : List Nat → Option Nat
  | [] => none
  | l :: r =>
    match look layers l with
    | none => hitLayers node layers vx vy sx sy r
    | some layer =>
      let p := layerPoint layer.anchor vx vy sx sy
      match hitElements node p.1 p.2 layer.elements.reverse with
      | some i => some i
      | none => hitLayers node layers vx vy sx sy r

/-- layer.rs 119-157, `find_element_at`; `node` is `get_node_by_id`. -/
def findElementAt (s : State) (node : Nat → Option Elem) (vx vy sx sy : ℚ) : Option Nat :=
  hitLayers node s.layers vx vy sx sy s.ids.reverse

end Verif.Layers
