import Verif.Tiler.Model

/-! # Specification: what tiles are for -/

namespace Verif.Tiler

/-- A point in a rectangle, without its right and lower border. -/
def Inside (r : Rect) (p : ℚ × ℚ) : Prop :=
  r.x ≤ p.1 ∧ p.1 < r.x + r.width ∧ r.y ≤ p.2 ∧ p.2 < r.y + r.height

/-- A point of the page. -/
def OnPage (i : Input) (p : ℚ × ℚ) : Prop := 0 ≤ p.1 ∧ p.1 < i.pageW ∧ 0 ≤ p.2 ∧ p.2 < i.pageH

/-- Drawing the part `d` of an element with box `m` in the tile `t` puts the point `p` of the page where
it belongs: the point is in the part that is drawn, and it comes out in the tile where `p` is. -/
def Draws (t : Tile) (d : Tiled) (m : Rect) (p : ℚ × ℚ) : Prop :=
  Inside d.rect (p.1 - m.x, p.2 - m.y) ∧
  d.position.1 + (p.1 - m.x - d.rect.x) = p.1 - t.rect.x ∧
  d.position.2 + (p.2 - m.y - d.rect.y) = p.2 - t.rect.y

/-- One tile of the list has the point, and no other. -/
def OneTile (ts : List Tile) (p : ℚ × ℚ) (t : Tile) : Prop :=
  t ∈ ts ∧ Inside t.rect p ∧ ∀ t' ∈ ts, Inside t'.rect p → t' = t

/-- Two rectangles have a point in common, borders included. -/
def Meet (a b : Rect) : Prop :=
  ∃ px py, a.x ≤ px ∧ px ≤ a.x + a.width ∧ a.y ≤ py ∧ py ≤ a.y + a.height ∧
    b.x ≤ px ∧ px ≤ b.x + b.width ∧ b.y ≤ py ∧ py ≤ b.y + b.height

/-- The part lies in the element and in the tile. -/
def Fits (t : Tile) (d : Tiled) (m : Rect) : Prop :=
  0 ≤ d.rect.x ∧ 0 ≤ d.rect.width ∧ d.rect.x + d.rect.width ≤ m.width ∧
  0 ≤ d.rect.y ∧ 0 ≤ d.rect.height ∧ d.rect.y + d.rect.height ≤ m.height ∧
  0 ≤ d.position.1 ∧ d.position.1 + d.rect.width ≤ t.rect.width ∧
  0 ≤ d.position.2 ∧ d.position.2 + d.rect.height ≤ t.rect.height

end Verif.Tiler
