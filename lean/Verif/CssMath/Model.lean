import Mathlib.Algebra.Order.Field.Rat

/-!
# Model of the CSS functions `min()`, `max()` and `clamp()`

Files modelled (in /repo/crates/gosub_css3/src): `functions/math.rs` (`resolve_math`, `operand_px`), `stylesheet.rs`
(`CssValue::unit_to_px` for values with a unit).

Simplification: floats are rational numbers; the viewport, a variable of the thread, is a parameter.
-/
namespace Verif.CssMath

/-- the values that matter here (`stylesheet.rs`, `CssValue`); all others are `other` -/
inductive Value
  | unit (v : ℚ) (u : String)
  | number (v : ℚ)
  | zero
  | comma
  | other
  deriving DecidableEq

/-- `CssValue::unit_to_px` for `Unit`, `stylesheet.rs:473-499` -/
def unitToPx (w h : ℚ) (v : ℚ) (u : String) : ℚ :=
  if u = "px" then v
  else if u = "em" then v * 16
  else if u = "rem" then v * 16
  else if u = "pt" then v * (96 / 72)
  else if u = "pc" then v * (96 / 6)
  else if u = "in" then v * 96
  else if u = "cm" then v * (96 / (254 / 100))
  else if u = "mm" then v * (96 / (254 / 10))
  else if u = "q" then v * (96 / (1016 / 10))
  else if u = "vw" ∨ u = "svw" ∨ u = "lvw" ∨ u = "dvw" then v * w / 100
  else if u = "vh" ∨ u = "svh" ∨ u = "lvh" ∨ u = "dvh" then v * h / 100
  else if u = "vmin" then v * min w h / 100
  else if u = "vmax" then v * max w h / 100
  else v

/-- `operand_px`, `math.rs:43-50` -/
def operandPx (w h : ℚ) : Value → Option ℚ
  | .unit v u => some (unitToPx w h v u)
  | .number n => some n
  | .zero => some 0
  | _ => none

/-- collecting options: `math.rs:16-21` -/
def collect (w h : ℚ) : List Value → Option (List ℚ)
  | [] => some []
  | v :: r => match operandPx w h v, collect w h r with
    | some x, some l => some (x :: l)
    | _, _ => none

/-- `fold(f32::INFINITY, f32::min)`; the infinity at the beginning is `none`, `math.rs:27` -/
def foldMin (l : List ℚ) : Option ℚ := l.foldl (fun a x => match a with | none => some x | some y => some (min y x)) none

/-- `fold(f32::NEG_INFINITY, f32::max)`, `math.rs:28` -/
def foldMax (l : List ℚ) : Option ℚ := l.foldl (fun a x => match a with | none => some x | some y => some (max y x)) none

/-- `resolve_math`, `math.rs:14-40` -/
def resolveMath (w h : ℚ) (func : String) (values : List Value) : Option Value :=
  match collect w h (values.filter (· ≠ .comma)) with
  | none => none
  | some [] => none
  | some (x :: l) =>
    if func = "min" then (foldMin (x :: l)).map fun p => .unit p "px"
    else if func = "max" then (foldMax (x :: l)).map fun p => .unit p "px"
    else if func = "clamp" then
      match x :: l with
      | [lo, val, hi] => some (.unit (max (min val hi) lo) "px")
      | _ => none
    else none

end Verif.CssMath
