import Mathlib.Analysis.SpecialFunctions.Trigonometric.Basic

/-!
# Model of the direction and the line of linear gradients

Files modelled (in /repo/crates/gosub_render_pipeline/src): `common/document/pipeline_doc.rs` (`parse_gradient_direction`),
`painter/commands/gradient.rs` (`LinearGradient::line`, the projection in `rasterize_tile`).

Simplification: floats are real numbers.
-/
namespace Verif.Gradient

/-- what is before the first comma: a number with a unit, or words in lower case -/
inductive Direction
  | angle (v : ℝ) (unit : String)
  | words (l : List String)

/-- the match on words, `pipeline_doc.rs:454-465` -/
noncomputable def byWords (top right bottom left : Bool) : ℝ :=
  match top, right, bottom, left with
  | true, false, false, false => 0
  | false, true, false, false => 90
  | false, false, false, true => 270
  | true, true, false, false => 45
  | false, true, true, false => 135
  | false, false, true, true => 225
  | true, false, false, true => 315
  | _, _, _, _ => 180

/-- `parse_gradient_direction`, `pipeline_doc.rs:433-466` -/
noncomputable def parseDirection : Direction → Option ℝ
  | .angle v u =>
    if u = "deg" then some v
    else if u = "grad" then some (v * (9 / 10))
    else if u = "rad" then some (v * (180 / Real.pi))
    else if u = "turn" then some (v * 360)
    else none
  | .words l =>
    if l.head? ≠ some "to" then none
    else some (byWords (l.contains "top") (l.contains "right") (l.contains "bottom") (l.contains "left"))

/-- `LinearGradient::line`, `gradient.rs:36-46`: the beginning and the end of the line -/
noncomputable def line (deg w h : ℝ) : (ℝ × ℝ) × (ℝ × ℝ) :=
  let theta := deg * (Real.pi / 180)
  let dx := Real.sin theta
  let dy := -Real.cos theta
  let half := (w * |dx| + h * |dy|) / 2
  let cx := w / 2
  let cy := h / 2
  ((cx - dx * half, cy - dy * half), (cx + dx * half, cy + dy * half))

open Classical in
/-- the position on the line of a point of the box, `gradient.rs:87-101`, before it is limited to [0, 1] -/
noncomputable def position (deg w h x y : ℝ) : ℝ :=
  let l := line deg w h
  let dx := l.2.1 - l.1.1
  let dy := l.2.2 - l.1.2
  let len2 := dx * dx + dy * dy
  if len2 ≤ 0 then 0 else ((x - l.1.1) * dx + (y - l.1.2) * dy) / len2

end Verif.Gradient
