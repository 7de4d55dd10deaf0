import Mathlib.Data.Rat.Floor

/-! # Model: cutting the layers of a page into tiles

`crates/gosub_render_pipeline/src/tiler.rs` and the boxes of `layouter/box_model.rs`.

Coordinates are rationals: the rounding of `f64`, and its largest and smallest values, are left out. -/

namespace Verif.Tiler

/-- `Rect` (geo.rs). -/
structure Rect where
  x : ℚ
  y : ℚ
  width : ℚ
  height : ℚ
deriving DecidableEq

/-- `Edges` (box_model.rs:4-10). -/
structure Edges where
  top : ℚ
  right : ℚ
  bottom : ℚ
  left : ℚ

/-- The margin box that `BoxModel::new` computes (box_model.rs:70-76). -/
def marginBox (border : Rect) (margin : Edges) : Rect :=
  ⟨border.x - margin.left, border.y - margin.top, border.width + margin.left + margin.right,
   border.height + margin.top + margin.bottom⟩

/-- `TiledLayoutElement` (tiler.rs:39-48), without the paint commands, which are filled in later. -/
structure Tiled where
  id : Nat
  rect : Rect
  position : ℚ × ℚ
deriving DecidableEq

/-- A colour with components between 0 and 255. -/
abbrev Color := Nat × Nat × Nat × Nat

/-- `Tile` (tiler.rs:92-106). All tiles start as dirty and without a texture. -/
structure Tile where
  id : Nat
  layer : Nat
  elements : List Tiled
  rect : Rect
  bg : Option Color
deriving DecidableEq

/-- `Layer` (layer.rs), as far as it is used here. -/
structure Layer where
  elements : List Nat

/-- What `generate` reads: the size of tiles and page, the order of the layers, the layers, the margin
boxes of the elements of the layout, and the background colours of the `html` and `body` elements. -/
structure Input where
  tileW : ℚ
  tileH : ℚ
  pageW : ℚ
  pageH : ℚ
  layerIds : List Nat
  layer : Nat → Option Layer
  box : Nat → Option Rect
  html : Option Color
  body : Option Color

/-- `get_background_color_from_node` (tiler.rs:404-417): a colour that is not transparent. The scaling of
the components to numbers between 0 and 1 is left out. -/
def background (c : Option Color) : Option Color :=
  match c with
  | some (r, g, b, a) => if a > 0 then some (r, g, b, a) else none
  | none => none

/-- The colour of the canvas (tiler.rs:236-246). -/
def canvas (i : Input) : Option Color :=
  match background i.html with
  | some c => some c
  | none => background i.body

/-- `as usize` of a whole number: negative numbers become 0. -/
def ceilNat (q : ℚ) : Nat := ⌈q⌉.toNat
def floorNat (q : ℚ) : Nat := ⌊q⌋.toNat

/-- `max_cols` and `max_rows` (tiler.rs:231-234). -/
def maxCols (i : Input) : Nat := ceilNat (i.pageW / i.tileW)
def maxRows (i : Input) : Nat := ceilNat (i.pageH / i.tileH)

/-- Corners: smallest x and y, and largest x and y. -/
structure Bounds where
  minX : ℚ
  minY : ℚ
  maxX : ℚ
  maxY : ℚ

/-- One round of the loop over the elements of a layer (tiler.rs:263-274). `none` stands for the largest
and smallest numbers at the start. -/
def grow (i : Input) (b : Option Bounds) (e : Nat) : Option Bounds :=
  match i.box e with
  | none => b
  | some m =>
    if m.width > 0 ∧ m.height > 0 then
      match b with
      | none => some ⟨m.x, m.y, m.x + m.width, m.y + m.height⟩
      | some b => some ⟨min b.minX m.x, min b.minY m.y, max b.maxX (m.x + m.width), max b.maxY (m.y + m.height)⟩
    else b

/-- The rows and columns to tile for a layer (tiler.rs:255-287): start and end of the rows, start and end
of the columns. -/
def span (i : Input) (idx : Nat) (l : Layer) : Option (Nat × Nat × Nat × Nat) :=
  if idx = 0 ∨ l.elements = [] then some (0, maxRows i, 0, maxCols i)
  else
    match l.elements.foldl (grow i) none with
    | none => none
    | some b =>
      let cs := min (floorNat (b.minX / i.tileW)) (maxCols i)
      let ce := min (ceilNat (b.maxX / i.tileW)) (maxCols i)
      let rs := min (floorNat (b.minY / i.tileH)) (maxRows i)
      let re := min (ceilNat (b.maxY / i.tileH)) (maxRows i)
      some (rs, re, cs, ce)

/-- `a..b`. -/
def upto (a b : Nat) : List Nat := List.range' a (b - a)

/-- The cells of the grid in the order of the loops (tiler.rs:296-297): row and column. -/
def cells (rs re cs ce : Nat) : List (Nat × Nat) :=
  (upto rs re).flatMap (fun y => (upto cs ce).map (fun x => (y, x)))

/-- The tile for a cell (tiler.rs:299-307). -/
def newTile (i : Input) (lid id : Nat) (c : Nat × Nat) : Tile :=
  ⟨id, lid, [], ⟨c.2 * i.tileW, c.1 * i.tileH, i.tileW, i.tileH⟩, canvas i⟩

/-- The tiles of a layer, with ids from a counter on (tiler.rs:296-312, 395-400). -/
def newTiles (i : Input) (lid : Nat) : Nat → List (Nat × Nat) → List Tile
  | _, [] => []
  | next, c :: cs => newTile i lid next c :: newTiles i lid (next + 1) cs

/-- `intersects_with` (tiler.rs:119-128): `rstar` finds the rectangles that have a point in common,
borders included; `AABB::from_corners` sorts the corners. -/
def touches (t m : Rect) : Bool :=
  decide (min m.x (m.x + m.width) ≤ t.x + t.width ∧ t.x ≤ max m.x (m.x + m.width) ∧
    min m.y (m.y + m.height) ≤ t.y + t.height ∧ t.y ≤ max m.y (m.y + m.height))

/-- The part of an element in a tile (tiler.rs:353-373). -/
def part (e : Nat) (m t : Rect) : Tiled :=
  ⟨e,
   ⟨max t.x m.x - m.x, max t.y m.y - m.y,
    min (t.x + t.width) (m.x + m.width) - max t.x m.x,
    min (t.y + t.height) (m.y + m.height) - max t.y m.y⟩,
   (max m.x t.x - t.x, max m.y t.y - t.y)⟩

/-- One round of the loop over the elements (tiler.rs:340-376). -/
def assign (i : Input) (ts : List Tile) (e : Nat) : List Tile :=
  match i.box e with
  | none => ts
  | some m => ts.map (fun t => if touches t.rect m then { t with elements := t.elements ++ [part e m t.rect] } else t)

/-- The tiles of a layer, if it has some (tiler.rs:248-376). -/
def layerTiles (i : Input) (next idx lid : Nat) : Option (List Tile) :=
  match i.layer lid with
  | none => none
  | some l =>
    match span i idx l with
    | none => none
    | some (rs, re, cs, ce) =>
      if rs ≥ re ∨ cs ≥ ce then none
      else some (l.elements.foldl (assign i) (newTiles i lid next (cells rs re cs ce)))

/-- The loop over the layers (tiler.rs:248-377). -/
def loop (i : Input) : Nat → Nat → List Nat → List (Nat × List Tile)
  | _, _, [] => []
  | next, idx, lid :: ids =>
    match layerTiles i next idx lid with
    | none => loop i next (idx + 1) ids
    | some ts => (lid, ts) :: loop i (next + ts.length) (idx + 1) ids

/-- `generate` (tiler.rs:219-378), with the counter for ids. The map from layers to tiles and the arena
are one list; the layers have different ids. -/
def generate (i : Input) (next : Nat) : List (Nat × List Tile) :=
  if i.tileW = 0 ∨ i.tileH = 0 then [] else loop i next 0 i.layerIds

/-- `get_tiles_for_element` (tiler.rs:154-166). -/
def tilesFor (out : List (Nat × List Tile)) (e : Nat) : List Nat :=
  (out.flatMap (·.2)).flatMap (fun t => (t.elements.filter (fun d => d.id = e)).map (fun _ => t.id))

end Verif.Tiler
