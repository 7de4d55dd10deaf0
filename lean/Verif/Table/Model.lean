import Mathlib.Tactic.Common
import Mathlib.Algebra.Order.Field.Rat

/-!
# Table layout

Model of `gosub_lattice` (model.rs, grid.rs, sizing/columns.rs, sizing/rows.rs, compute.rs) and of
the way the render pipeline turns its relative boxes into page positions
(gosub_render_pipeline/src/layouter/table.rs `apply_recursive`).

Simplifications: `f32` is replaced by exact rational arithmetic (no rounding, no NaN); `usize` is
`Nat`; a `TableTree` is a record of functions, `layout_cell` being a function of the cell and the
width (its side effects inside the cell are left out); fixed-length vectors indexed by column or row
are functions of the index, every index being proved in range (`C66_in_range`).
-/
namespace Verif.Table

/-- gosub_lattice/src/types.rs 5-26, `TableRole`. -/
inductive Role where
  | table | caption | columnGroup | column | headerGroup | footerGroup | rowGroup | row | cell | other
deriving DecidableEq

/-- types.rs 30-35, `CssLength`. -/
inductive Len where
  | auto
  | px (v : ℚ)
  | percent (v : ℚ)
  | zero

/-- types.rs 53-59, `CssLength::px_or`. -/
def Len.pxOr (l : Len) (d : ℚ) : ℚ :=
  match l with
  | .px v => v
  | .zero => 0
  | _ => d

/-- types.rs 95-100, `BoxEdges`. -/
structure Edges where
  top : ℚ
  right : ℚ
  bottom : ℚ
  left : ℚ

/-- types.rs 103-109, `horizontal` and `vertical`. -/
def Edges.horizontal (e : Edges) : ℚ := e.left + e.right
def Edges.vertical (e : Edges) : ℚ := e.top + e.bottom

/-- types.rs 114-121, `CellLayout`. -/
structure Layout where
  x : ℚ
  y : ℚ
  width : ℚ
  height : ℚ
  border : Edges
  padding : Edges

/-- compute.rs 275-280, `BOX_EDGES_ZERO`. -/
def zeroEdges : Edges := ⟨0, 0, 0, 0⟩

/-- gosub_lattice/src/lib.rs 20-57, `TableTree`, one function for each CSS property read. -/
structure Tree (N : Type) where
  children : N → List N
  role : N → Role
  colspan : N → Option Nat
  rowspan : N → Option Nat
  width : N → Len
  height : N → Len
  border : N → Edges
  padding : N → Edges
  spacingX : N → Len
  spacingY : N → Len
  layoutCell : N → ℚ → ℚ
  contentWidth : N → ℚ

/-! ## model.rs -/

/-- model.rs 39-45, `SourceCell`. -/
structure Source (N : Type) where
  node : N
  colspan : Nat
  rowspan : Nat
deriving DecidableEq

/-- model.rs 32-36, `TableRow`. -/
structure Row (N : Type) where
  node : Option N
  cells : List (Source N)
deriving DecidableEq

/-- model.rs 26-30, `RowGroup`. -/
structure Group (N : Type) where
  node : Option N
  rows : List (Row N)
deriving DecidableEq

/-- model.rs 5-19, `TableModel`; caption, column groups, sizing and border-collapse are recorded by
the code and read nowhere, and are left out. -/
structure TModel (N : Type) where
  header : List (Group N)
  body : List (Group N)
  footer : List (Group N)

variable {N : Type}

/-- model.rs 148-152, `build_source_cell`. -/
def buildSourceCell (t : Tree N) (n : N) : Source N :=
  ⟨n, max ((t.colspan n).getD 1) 1, max ((t.rowspan n).getD 1) 1⟩

/-- model.rs 135-146, `build_row`. -/
def buildRow (t : Tree N) (n : N) : Row N :=
  ⟨some n, ((t.children n).filter fun c => t.role c = .cell).map (buildSourceCell t)⟩

/-- model.rs 168-178, `anon_row`, followed by pushing the cell. -/
def pushAnonCell (rows : List (Row N)) (c : Source N) : List (Row N) :=
  match rows.getLast? with
  | some r =>
    match r.node with
    | none => rows.dropLast ++ [{ r with cells := r.cells ++ [c] }]
    | some _ => rows ++ [⟨none, [c]⟩]
  | none => rows ++ [⟨none, [c]⟩]

/-- model.rs 121-131, one child of a row group. -/
def groupChild (t : Tree N) (rows : List (Row N)) (c : N) : List (Row N) :=
  match t.role c with
  | .row => rows ++ [buildRow t c]
  | .cell => pushAnonCell rows (buildSourceCell t c)
  | _ => rows

/-- model.rs 116-133, `build_row_group`. -/
def buildRowGroup (t : Tree N) (n : N) : Group N :=
  ⟨some n, (t.children n).foldl (groupChild t) []⟩

/-- model.rs 155-165, `anon_body_group`, followed by a change of its rows. -/
def withAnonGroup (groups : List (Group N)) (f : List (Row N) → List (Row N)) : List (Group N) :=
  match groups.getLast? with
  | some g =>
    match g.node with
    | none => groups.dropLast ++ [{ g with rows := f g.rows }]
    | some _ => groups ++ [⟨none, f []⟩]
  | none => groups ++ [⟨none, f []⟩]

/-- model.rs 65-98, one child of the table. -/
def tableChild (t : Tree N) (m : TModel N) (c : N) : TModel N :=
  match t.role c with
  | .headerGroup => { m with header := m.header ++ [buildRowGroup t c] }
  | .rowGroup => { m with body := m.body ++ [buildRowGroup t c] }
  | .footerGroup => { m with footer := m.footer ++ [buildRowGroup t c] }
  | .row => { m with body := withAnonGroup m.body (fun rows => rows ++ [buildRow t c]) }
  | .cell => { m with body := withAnonGroup m.body (fun rows => pushAnonCell rows (buildSourceCell t c)) }
  | _ => m

/-- model.rs 52-101, `build_model`. -/
def buildModel (t : Tree N) (table : N) : TModel N :=
  (t.children table).foldl (tableChild t) ⟨[], [], []⟩

/-! ## grid.rs -/

/-- grid.rs 5-15, `PlacedCell`. -/
structure Placed (N : Type) where
  node : N
  row : Nat
  col : Nat
  colspan : Nat
  rowspan : Nat
deriving DecidableEq

/-- grid.rs 18-22, `SectionGrid`. -/
structure Grid (N : Type) where
  cells : List (Placed N)
  nCols : Nat
  nRows : Nat

/-- grid.rs 117-121, `decrement_slots`. -/
def decrementSlots (slots : List Nat) : List Nat := slots.map (· - 1)

/-- grid.rs 125-127, the loop of `next_free_col` on the slots from `col` on. -/
def nextFree : List Nat → Nat → Nat
  | [], col => col
  | s :: r, col => if s > 0 then nextFree r (col + 1) else col

/-- grid.rs 123-129, `next_free_col`. -/
def nextFreeCol (slots : List Nat) (start : Nat) : Nat := nextFree (slots.drop start) start

/-- grid.rs 131-135, `grow_slots`. -/
def growSlots (slots : List Nat) (minLen : Nat) : List Nat :=
  slots ++ List.replicate (minLen - slots.length) 0

/-- grid.rs 95-97, marking the slots of a cell. -/
def markSlots (slots : List Nat) (col colspan rowspan : Nat) : List Nat :=
  slots.mapIdx fun i s => if col ≤ i ∧ i < col + colspan then rowspan else s

/-- grid.rs 81-108, the cells of one row, from column `col` on. -/
def placeRow (nRows rowIdx : Nat) : List (Source N) → List Nat → Nat → List (Placed N) × List Nat
  | [], slots, _ => ([], slots)
  | s :: rest, slots, col0 =>
    let col := nextFreeCol slots col0
    let colspan := max s.colspan 1
    let rowsLeft := nRows - rowIdx
    let rowspan := min (max s.rowspan 1) rowsLeft
    let slots := markSlots (growSlots slots (col + colspan)) col colspan rowspan
    let out := placeRow nRows rowIdx rest slots (col + colspan)
    (⟨s.node, rowIdx, col, colspan, rowspan⟩ :: out.1, out.2)

/-- grid.rs 75-109, the rows from `rowIdx` on. -/
def placeRows (nRows : Nat) : List (Row N) → Nat → List Nat → List (Placed N) × List Nat
  | [], _, slots => ([], slots)
  | r :: rest, rowIdx, slots =>
    let a := placeRow nRows rowIdx r.cells (decrementSlots slots) 0
    let b := placeRows nRows rest (rowIdx + 1) a.2
    (a.1 ++ b.1, b.2)

/-- grid.rs 66-113, `build_section_grid`. -/
def buildSectionGrid (rows : List (Row N)) : Grid N :=
  let out := placeRows rows.length rows 0 []
  ⟨out.1, out.2.length, rows.length⟩

/-- grid.rs 31-33, `cells_in_row`. -/
def Grid.cellsInRow (g : Grid N) (r : Nat) : List (Placed N) := g.cells.filter fun c => c.row = r

/-! ## sizing/columns.rs -/

/-- a vector update -/
def setAt {α : Type} (f : Nat → α) (i : Nat) (v : α) : Nat → α := fun j => if j = i then v else f j

/-- columns.rs 33-34, the vectors `explicit` and `natural`. -/
structure Scan where
  explicit : Nat → Option ℚ
  natural : Nat → ℚ

/-- columns.rs 48-52, the width a cell asks for. -/
def specified (t : Tree N) (tableWidth : ℚ) (n : N) : Option ℚ :=
  match t.width n with
  | .px v => some (max v (t.contentWidth n))
  | .percent p => some (max (p / 100 * tableWidth) (t.contentWidth n))
  | _ => none

/-- columns.rs 40-58, one cell of the scanned row. -/
def scanCell (t : Tree N) (tableWidth : ℚ) (s : Scan) (c : Placed N) : Scan :=
  if c.colspan = 1 then
    { explicit :=
        if (s.explicit c.col).isNone then setAt s.explicit c.col (specified t tableWidth c.node)
        else s.explicit
      natural :=
        if t.contentWidth c.node > s.natural c.col then setAt s.natural c.col (t.contentWidth c.node)
        else s.natural }
  else s

/-- columns.rs 37-63: the cells of the first non-empty row of the first grid that has one. -/
def firstRow (grids : List (Grid N)) : List (Placed N) :=
  (((grids.flatMap fun g => (List.range g.nRows).map g.cellsInRow)).find? fun l => !l.isEmpty).getD []

/-- columns.rs 33-63, the scan. -/
def scan (t : Tree N) (tableWidth : ℚ) (grids : List (Grid N)) : Scan :=
  (firstRow grids).foldl (scanCell t tableWidth) ⟨fun _ => none, fun _ => 0⟩

/-- columns.rs 80-81 -/
def narrowThreshold : ℚ := 50
def narrowFloor : ℚ := 14

/-- columns.rs 31, 65-66: the space left for columns without a specified width. -/
def remainingWidth (s : Scan) (nCols : Nat) (tableWidth spacing : ℚ) : ℚ :=
  let spacingTotal := ((nCols : ℚ) + 1) * spacing
  let available := max (tableWidth - spacingTotal) 0
  let fixedTotal := ((List.range nCols).filterMap s.explicit).sum
  max (available - fixedTotal) 0

/-- columns.rs 68, `auto_cols`. -/
def autoCols (s : Scan) (nCols : Nat) : List Nat :=
  (List.range nCols).filter fun c => (s.explicit c).isNone

/-- columns.rs 70-116, the width given to the auto column `col`. -/
def autoWidth (s : Scan) (nCols : Nat) (remaining : ℚ) (col : Nat) : ℚ :=
  let auto := autoCols s nCols
  let totalNatural := (auto.map s.natural).sum
  if totalNatural > 0 then
    let narrowTotal := ((auto.filter fun c => s.natural c < narrowThreshold).map
      fun c => max (s.natural c) narrowFloor).sum
    let contentTotal := ((auto.filter fun c => s.natural c ≥ narrowThreshold).map s.natural).sum
    if contentTotal > 0 then
      let contentRemaining := max (remaining - narrowTotal) 0
      if s.natural col < narrowThreshold then max (s.natural col) narrowFloor
      else contentRemaining * s.natural col / contentTotal
    else remaining * s.natural col / totalNatural
  else remaining / (auto.length : ℚ)

/-- columns.rs 18-120, `compute_column_widths`.  The final loops set every auto column once; they are
folded into the last map. -/
def columnWidths (t : Tree N) (nCols : Nat) (tableWidth spacing : ℚ) (grids : List (Grid N)) : List ℚ :=
  let s := scan t tableWidth grids
  let remaining := remainingWidth s nCols tableWidth spacing
  (List.range nCols).map fun c => (s.explicit c).getD (autoWidth s nCols remaining c)

/-! ## sizing/rows.rs -/

/-- `slice.get(from..from + len).unwrap_or(&[])` -/
def sliceGet (l : List ℚ) (start len : Nat) : List ℚ :=
  if start + len ≤ l.length then (l.drop start).take len else []

/-- rows.rs 24-45, the height a cell needs. -/
def cellHeight (t : Tree N) (colWidths : List ℚ) (c : Placed N) : ℚ :=
  let innerW := max ((sliceGet colWidths c.col c.colspan).sum - (t.border c.node).horizontal
    - (t.padding c.node).horizontal) 0
  let contentH := t.layoutCell c.node innerW
  let explicitH := match t.height c.node with
    | .px v => v
    | _ => 0
  max contentH explicitH + (t.border c.node).vertical + (t.padding c.node).vertical

/-- rows.rs 19-49, one cell. -/
def rowCell (t : Tree N) (colWidths : List ℚ) (h : Nat → ℚ) (c : Placed N) : Nat → ℚ :=
  if c.rowspan ≠ 1 then h
  else if cellHeight t colWidths c > h c.row then setAt h c.row (cellHeight t colWidths c)
  else h

/-- rows.rs 16-52, `compute_row_heights`. -/
def rowHeights (t : Tree N) (g : Grid N) (colWidths : List ℚ) : List ℚ :=
  (List.range g.nRows).map (g.cells.foldl (rowCell t colWidths) fun _ => 0)

/-! ## compute.rs -/

/-- compute.rs 242-250, `col_x_offsets` (245-248 the loop). -/
def offsetsFrom (spacing : ℚ) : ℚ → List ℚ → List ℚ
  | _, [] => []
  | x, w :: r => x :: offsetsFrom spacing (x + (w + spacing)) r

def colXOffsets (widths : List ℚ) (spacing : ℚ) : List ℚ := offsetsFrom spacing spacing widths

/-- compute.rs 255-263, `row_y_offsets`. -/
def rowYOffsets (heights : List ℚ) (spacing : ℚ) : List ℚ := offsetsFrom spacing 0 heights

/-- compute.rs 268-272, `section_height`. -/
def sectionHeight (heights : List ℚ) (spacing : ℚ) : ℚ :=
  heights.sum + spacing * ((heights.length - 1 : Nat) : ℚ)

/-- compute.rs 197-236, `place_cell`: the layout given to the cell. -/
def placeCell (t : Tree N) (c : Placed N) (heights colX widths : List ℚ) (sx sy : ℚ) : Layout :=
  let cols := sliceGet widths c.col c.colspan
  let rows := sliceGet heights c.row c.rowspan
  { x := colX.getD c.col 0
    y := 0
    width := cols.sum + sx * ((cols.length - 1 : Nat) : ℚ)
    height := rows.sum + sy * ((rows.length - 1 : Nat) : ℚ)
    border := t.border c.node
    padding := t.padding c.node }

/-- compute.rs 172-192, rows from `idx` on: the calls of `set_layout`, in order. -/
def placeRowsLayout (t : Tree N) (g : Grid N) (heights colX widths : List ℚ) (sx sy : ℚ) :
    List (Row N) → Nat → List (N × Layout)
  | [], _ => []
  | r :: rest, idx =>
    (match r.node with
      | some n => [(n, ⟨0, (rowYOffsets heights sy).getD idx 0, widths.sum, heights.getD idx 0, zeroEdges, zeroEdges⟩)]
      | none => []) ++
    (g.cellsInRow idx).map (fun c => (c.node, placeCell t c heights colX widths sx sy)) ++
    placeRowsLayout t g heights colX widths sx sy rest (idx + 1)

/-- compute.rs 120-149, the groups in order, `y` being `group_y`: the calls of `set_layout` and the
final `group_y`. -/
def placeGroups (t : Tree N) (colX widths : List ℚ) (nCols : Nat) (sx sy : ℚ) :
    List (Group N) → ℚ → List (N × Layout) × ℚ
  | [], y => ([], y)
  | g :: rest, y =>
    let grid := buildSectionGrid g.rows
    let heights := rowHeights t grid widths
    let gh := sectionHeight heights sy
    let out := placeGroups t colX widths nCols sx sy rest (y + (gh + sy))
    ((match g.node with
      | some n => [(n, ⟨0, y, widths.sum + ((nCols : ℚ) + 1) * sx, gh, zeroEdges, zeroEdges⟩)]
      | none => []) ++
     placeRowsLayout t grid heights colX widths sx sy g.rows 0 ++ out.1, out.2)

/-- compute.rs 59-63, the table's width. -/
def tableWidth (t : Tree N) (table : N) (available : ℚ) : ℚ :=
  match t.width table with
  | .px w => w
  | .percent p => p / 100 * available
  | _ => available

/-- compute.rs 30-52: all groups in the order header, body, footer. -/
def TModel.groups (m : TModel N) : List (Group N) := m.header ++ m.body ++ m.footer

/-- compute.rs 46-52, the number of columns. -/
def columnCount (grids : List (Grid N)) : Nat := (grids.map Grid.nCols).foldl max 0

/-- What `compute_table_layout` does: the calls of `set_layout` in order and the size returned. -/
structure Result (N : Type) where
  calls : List (N × Layout)
  width : ℚ
  height : ℚ

/-- compute.rs 20-154, `compute_table_layout`. -/
def computeTableLayout (t : Tree N) (table : N) (available : ℚ) : Result N :=
  let groups := (buildModel t table).groups
  let grids := groups.map fun g => buildSectionGrid g.rows
  let n := columnCount grids
  let sx := (t.spacingX table).pxOr 2
  let sy := (t.spacingY table).pxOr 2
  if n = 0 then ⟨[], 0, 0⟩
  else
    let tw := tableWidth t table available
    let widths := columnWidths t n tw sx grids
    let out := placeGroups t (colXOffsets widths sx) widths n sx sy groups sy
    ⟨out.1, tw, out.2⟩

/-- gosub_render_pipeline/src/layouter/table.rs 88-133, `apply_recursive`: the page position of the
last node of a path below the table (`path` lists the nodes from a child of the table down),
relative to the table's content box.  `pending` is a `HashMap`: the last `set_layout` of a node
counts; a node without one leaves the position of its parent unchanged for its children. -/
def absolute [DecidableEq N] (pending : List (N × Layout)) : List N → ℚ × ℚ → ℚ × ℚ
  | [], p => p
  | n :: rest, p =>
    match pending.reverse.find? (fun e => e.1 = n) with
    | none => absolute pending rest p
    | some e => absolute pending rest (p.1 + e.2.x, p.2 + e.2.y)

end Verif.Table
