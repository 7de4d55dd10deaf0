import Verif.Table.Model

/-!
# What table layout promises
-/
namespace Verif.Table
variable {N : Type}

/-- the cell occupies the slot in row `r` and column `c` -/
def Covers (p : Placed N) (r c : Nat) : Prop :=
  p.row ≤ r ∧ r < p.row + p.rowspan ∧ p.col ≤ c ∧ c < p.col + p.colspan

/-- the two cells have a slot in common -/
def Overlap (p q : Placed N) : Prop := ∃ r c, Covers p r c ∧ Covers q r c

/-- the source cells in order, each with the row it stands in -/
def sourceCells (rows : List (Row N)) : List (Source N × Nat) :=
  rows.zipIdx.flatMap fun (r, i) => r.cells.map fun s => (s, i)

/-- the column after the last cell of row `r` among `pre` -/
def rowEnd (pre : List (Placed N)) (r : Nat) : Nat :=
  ((pre.filter fun p => p.row = r).map fun p => p.col + p.colspan).foldl max 0

/-- `q` stands after the cells of its row, and every column it skips is taken by an earlier cell -/
def NextGap (pre : List (Placed N)) (q : Placed N) : Prop :=
  rowEnd pre q.row ≤ q.col ∧ ∀ c, rowEnd pre q.row ≤ c → c < q.col → ∃ p ∈ pre, Covers p q.row c

/-- a rectangle on the page, relative to the table -/
structure Box where
  x : ℚ
  y : ℚ
  width : ℚ
  height : ℚ
deriving DecidableEq

/-- one box ends at least `sx` left of the other or at least `sy` above it -/
def Apart (sx sy : ℚ) (a b : Box) : Prop :=
  a.x + a.width + sx ≤ b.x ∨ b.x + b.width + sx ≤ a.x ∨
  a.y + a.height + sy ≤ b.y ∨ b.y + b.height + sy ≤ a.y

/-- the interiors meet -/
def Collide (a b : Box) : Prop :=
  a.x < b.x + b.width ∧ b.x < a.x + a.width ∧ a.y < b.y + b.height ∧ b.y < a.y + a.height

/-- the box a node finally gets on the page, found by walking from the table down the document -/
def boxOf [DecidableEq N] (calls : List (N × Layout)) (path : List N) (n : N) : Option Box :=
  (calls.reverse.find? fun e => e.1 = n).map fun e =>
    let p := absolute calls (path ++ [n]) (0, 0)
    ⟨p.1, p.2, e.2.width, e.2.height⟩

/-- the cells standing directly in a row -/
def cellsOfRow (t : Tree N) (r : N) : List N := (t.children r).filter fun c => t.role c = .cell

/-- the rows and cells standing directly in a row group, each row followed by its cells -/
def partsOfGroup (t : Tree N) (g : N) : List N :=
  (t.children g).flatMap fun c =>
    if t.role c = .row then c :: cellsOfRow t c else if t.role c = .cell then [c] else []

/-- all row groups, rows and cells of the table, in document order -/
def partsOfTable (t : Tree N) (table : N) : List N :=
  (t.children table).flatMap fun c =>
    if t.role c = .headerGroup ∨ t.role c = .rowGroup ∨ t.role c = .footerGroup then c :: partsOfGroup t c
    else if t.role c = .row then c :: cellsOfRow t c
    else if t.role c = .cell then [c]
    else []

/-- the row groups from top to bottom: headers, then bodies, then footers, each kind in document order -/
def sectionOrder (t : Tree N) (table : N) : List N :=
  ((t.children table).filter fun c => t.role c = .headerGroup) ++
  ((t.children table).filter fun c => t.role c = .rowGroup) ++
  ((t.children table).filter fun c => t.role c = .footerGroup)

/-- row `i` of the group `G` is the first row of the table that has a cell -/
def IsFirstRow (groups : List (Group N)) (G : Group N) (i : Nat) : Prop :=
  ∃ pre post, groups = pre ++ G :: post ∧ (∀ g ∈ pre, ∀ r ∈ g.rows, r.cells = []) ∧
    (∃ R, G.rows[i]? = some R ∧ R.cells ≠ []) ∧ ∀ j R, j < i → G.rows[j]? = some R → R.cells = []

/-- the cell that settles the width of column `c`: the one standing in that column alone -/
def cellFor (first : List (Placed N)) (c : Nat) : Option (Placed N) :=
  first.find? fun p => p.colspan = 1 ∧ p.col = c

/-- the width column `c` must have: what its cell specifies, but no less than the cell's content -/
def askedWidth (t : Tree N) (tw : ℚ) (first : List (Placed N)) (c : Nat) : Option ℚ :=
  (cellFor first c).bind fun p =>
    match t.width p.node with
    | .px v => some (max v (t.contentWidth p.node))
    | .percent v => some (max (v / 100 * tw) (t.contentWidth p.node))
    | .auto => none
    | .zero => none

/-- the width of the content of the cell that settles column `c` -/
def contentOf (t : Tree N) (first : List (Placed N)) (c : Nat) : ℚ :=
  ((cellFor first c).map fun p => t.contentWidth p.node).getD 0

/-- the columns without a specified width -/
def freeColumns (t : Tree N) (tw : ℚ) (first : List (Placed N)) (n : Nat) : List Nat :=
  (List.range n).filter fun c => askedWidth t tw first c = none

/-- some column without a specified width has content at least 50 wide -/
def HasWide (t : Tree N) (tw : ℚ) (first : List (Placed N)) (n : Nat) : Prop :=
  ∃ c ∈ freeColumns t tw first n, 50 ≤ contentOf t first c

instance (t : Tree N) (tw : ℚ) (first : List (Placed N)) (n : Nat) : Decidable (HasWide t tw first n) := by
  unfold HasWide; infer_instance

/-- what the columns need at the least: the specified widths, and, beside a wide column, the narrow
columns' content with a floor of 14 -/
def neededWidth (t : Tree N) (tw : ℚ) (first : List (Placed N)) (n : Nat) : ℚ :=
  ((List.range n).filterMap (askedWidth t tw first)).sum +
    if HasWide t tw first n then
      (((freeColumns t tw first n).filter fun c => contentOf t first c < 50).map
        fun c => max (contentOf t first c) 14).sum
    else 0

end Verif.Table
