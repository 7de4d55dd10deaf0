import Mathlib.Algebra.Order.Field.Rat

/-!
# Model of linear gradients: positions of colour stops and the colour at a position

Files modelled (in /repo/crates/gosub_render_pipeline/src): `common/document/pipeline_doc.rs` (`parse_linear_gradient`),
`painter/commands/gradient.rs` (`LinearGradient::color_at`).

Simplification: floats are rational numbers.
-/
namespace Verif.Gradient

/-- `painter/commands/color.rs`: the channels of a colour -/
structure Color where
  r : ℚ
  g : ℚ
  b : ℚ
  a : ℚ
  deriving DecidableEq

/-- `gradient.rs:3-8` -/
structure Stop where
  off : ℚ
  color : Color
  deriving DecidableEq

/-- one group between commas after the direction: its first colour and its first percentage, as a part of 1
(`pipeline_doc.rs:364-379`; reading of the values not modelled); a group without a colour is skipped -/
structure Group where
  color : Option Color
  pos : Option ℚ
  deriving DecidableEq

/-- the groups with a colour, `pipeline_doc.rs:364-379` -/
def coloured (gs : List Group) : List (Color × Option ℚ) := gs.filterMap fun g => g.color.map fun c => (c, g.pos)

/-- `pipeline_doc.rs:386-388` -/
def anchorFirst : List (Option ℚ) → List (Option ℚ)
  | none :: r => some 0 :: r
  | l => l

/-- `pipeline_doc.rs:389-391` -/
def anchorLast (l : List (Option ℚ)) : List (Option ℚ) :=
  if l.getLast? = some none then l.dropLast ++ [some 1] else l

/-- the positions at the beginning that are missing: the inner `while` of `pipeline_doc.rs:400-402` -/
def missing : List (Option ℚ) → Nat
  | none :: r => missing r + 1
  | _ => 0

/-- the position after these, or 1: `pipeline_doc.rs:404` -/
def nextPos (l : List (Option ℚ)) : ℚ := ((l.drop (missing l)).head?.bind id).getD 1

/-- the loop of `pipeline_doc.rs:392-410`, as a recursion over the rest of the list: `prev` is the position before it,
`f` is a bound for the number of rounds -/
def fill : Nat → ℚ → List (Option ℚ) → List ℚ
  | _, _, [] => []
  | 0, _, _ :: _ => []
  | f + 1, _, some v :: r => v :: fill f v r
  | f + 1, prev, none :: r =>
    let gap := missing (none :: r)
    let b := nextPos (none :: r)
    (List.range' 1 gap).map (fun (k : Nat) => prev + (b - prev) * (k : ℚ) / ((gap : ℚ) + 1)) ++ fill f b ((none :: r).drop gap)

/-- `pipeline_doc.rs:412-422` -/
def settle : ℚ → List (Color × ℚ) → List Stop
  | _, [] => []
  | running, (c, o) :: r =>
    let off := max (max 0 (min o 1)) running
    ⟨off, c⟩ :: settle off r

/-- `pipeline_doc.rs:364-429` -/
def parse (gs : List Group) : Option (List Stop) :=
  let l := coloured gs
  if l.length < 2 then none
  else
    let offsets := anchorLast (anchorFirst (l.map (·.2)))
    some (settle 0 ((l.map (·.1)).zip (fill (offsets.length + 1) 0 offsets)))

/-- `f32::EPSILON` -/
def epsilon : ℚ := 1 / 8388608

/-- `gradient.rs:70-76`. Simplification: `from_rgba` also limits the channels to [0, 1], which changes nothing for channels in it -/
def mix (a b : Color) (f : ℚ) : Color :=
  ⟨a.r + (b.r - a.r) * f, a.g + (b.g - a.g) * f, a.b + (b.b - a.b) * f, a.a + (b.a - a.a) * f⟩

/-- the loop of `gradient.rs:62-78`; `d` is the colour after it -/
def findPair (t : ℚ) (d : Color) : List Stop → Color
  | a :: b :: r =>
    if a.off ≤ t ∧ t ≤ b.off then
      if b.off - a.off ≤ epsilon then b.color
      else mix a.color b.color ((t - a.off) / (b.off - a.off))
    else findPair t d (b :: r)
  | _ => d

/-- `gradient.rs:50-82` -/
def colorAt (stops : List Stop) (t : ℚ) : Color :=
  match stops with
  | [] => ⟨0, 0, 0, 0⟩
  | [only] => only.color
  | first :: second :: rest =>
    if t ≤ first.off then first.color
    else
      let last := (second :: rest).getLast (by simp)
      if last.off ≤ t then last.color
      else findPair t last.color (first :: second :: rest)

end Verif.Gradient
