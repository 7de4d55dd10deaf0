import Verif.Gradient.Line

/-! # Specification: directions and lines of gradients (CSS Images 3, 3.1.1; CSS Values 4, 7.1) -/
namespace Verif.Gradient

/-- the point `(x, y)` is in the box of `w` by `h` (`y` goes down) -/
def InBox (w h x y : ℝ) : Prop := 0 ≤ x ∧ x ≤ w ∧ 0 ≤ y ∧ y ≤ h

/-- the point is a corner of the box -/
def Corner (w h x y : ℝ) : Prop := (x = 0 ∨ x = w) ∧ (y = 0 ∨ y = h)

/-- `u` units of an angle make a full turn: "360 degrees, 400 gradians, 2π radians, 1 turn in a full circle" -/
def FullTurn : String → ℝ → Prop := fun u n =>
  (u = "deg" ∧ n = 360) ∨ (u = "grad" ∧ n = 400) ∨ (u = "rad" ∧ n = 2 * Real.pi) ∨ (u = "turn" ∧ n = 1)

/-- the words for a side, with the position that a point of the box has -/
def Side (w h x y : ℝ) : List String → ℝ → Prop := fun l t =>
  (l = ["to", "top"] ∧ t = 1 - y / h) ∨ (l = ["to", "bottom"] ∧ t = y / h) ∨
  (l = ["to", "right"] ∧ t = x / w) ∨ (l = ["to", "left"] ∧ t = 1 - x / w)

/-- the words for a corner, and the two corners beside it, through which the line of the position 50% goes:
"a line drawn perpendicular to the gradient line at its center would intersect the two neighboring corners" -/
def Beside (w h : ℝ) : List String → ℝ × ℝ → ℝ × ℝ → Prop := fun l p q =>
  ((l = ["to", "top", "right"] ∨ l = ["to", "right", "top"] ∨ l = ["to", "bottom", "left"] ∨ l = ["to", "left", "bottom"]) ∧
    p = (0, 0) ∧ q = (w, h)) ∨
  ((l = ["to", "top", "left"] ∨ l = ["to", "left", "top"] ∨ l = ["to", "bottom", "right"] ∨ l = ["to", "right", "bottom"]) ∧
    p = (w, 0) ∧ q = (0, h))

/-- the words for a corner, and this corner -/
def Towards (w h : ℝ) : List String → ℝ × ℝ → Prop := fun l r =>
  ((l = ["to", "top", "right"] ∨ l = ["to", "right", "top"]) ∧ r = (w, 0)) ∨
  ((l = ["to", "bottom", "left"] ∨ l = ["to", "left", "bottom"]) ∧ r = (0, h)) ∨
  ((l = ["to", "top", "left"] ∨ l = ["to", "left", "top"]) ∧ r = (0, 0)) ∨
  ((l = ["to", "bottom", "right"] ∨ l = ["to", "right", "bottom"]) ∧ r = (w, h))

end Verif.Gradient
