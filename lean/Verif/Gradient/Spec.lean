import Verif.Gradient.Model

/-! # Specification: gradients in CSS (CSS Images 3, 3.4.3 "Color Stop Fixup") -/
namespace Verif.Gradient

/-- "If the first color stop does not have a position, set its position to 0%. If the last color stop does not have
a position, set its position to 100%." -/
def anchored (s : List (Option ℚ)) : List (Option ℚ) :=
  s.mapIdx fun i o => match o with
    | some v => some v
    | none => if i = 0 then some 0 else if i + 1 = s.length then some 1 else none

/-- "If a color stop has a position that is less than the specified position of any color stop before it in the list,
set its position to be equal to the largest specified position of any color stop before it." `m` is the largest before. -/
def raised (m : ℚ) : List (Option ℚ) → List (Option ℚ)
  | [] => []
  | some v :: r => some (max m v) :: raised (max m v) r
  | none :: r => none :: raised m r

/-- `n` positions evenly spaced between `a` and `b` -/
def evenly (a b : ℚ) (n : Nat) : List ℚ := (List.range' 1 n).map fun (k : Nat) => a + (b - a) * (k : ℚ) / ((n : ℚ) + 1)

/-- "If any color stop still does not have a position, then, for each run of adjacent color stops without positions,
set their positions so that they are evenly spaced between the preceding and following color stops with positions."
`a` is the position before, and `n` the number of stops without a position since. -/
def spread (a : ℚ) (n : Nat) : List (Option ℚ) → List ℚ
  | [] => []
  | some v :: r => evenly a v n ++ v :: spread v 0 r
  | none :: r => spread a (n + 1) r

/-- the positions of the colour stops; the first one has a position, so that what is before it does not matter -/
def positions (s : List (Option ℚ)) : List ℚ :=
  match anchored s with
  | some v :: r => spread 0 0 (some v :: raised v r)
  | l => spread 0 0 l

/-- `c` is the part `f` of the way from the one colour to the other, in premultiplied space: "interpolating between two
colors in premultiplied RGBA space" (CSS Images 3, 3.4.2) -/
def Mixed (a b : Color) (f : ℚ) (c : Color) : Prop :=
  c.a = (1 - f) * a.a + f * b.a ∧
  c.r * c.a = (1 - f) * (a.r * a.a) + f * (b.r * b.a) ∧
  c.g * c.a = (1 - f) * (a.g * a.a) + f * (b.g * b.a) ∧
  c.b * c.a = (1 - f) * (a.b * a.a) + f * (b.b * b.a)

/-- the colour at a position of the gradient line. Where two stops are at the same position, both colours are right
exactly there. -/
inductive Shows (stops : List Stop) (t : ℚ) : Color → Prop
  | before {s r} : stops = s :: r → (∀ x ∈ stops, t ≤ x.off) → Shows stops t s.color
  | after {s r} : stops = r ++ [s] → (∀ x ∈ stops, x.off ≤ t) → Shows stops t s.color
  | between {l a b r c} : stops = l ++ a :: b :: r → a.off ≤ t → t ≤ b.off → a.off < b.off →
      Mixed a.color b.color ((t - a.off) / (b.off - a.off)) c → Shows stops t c

/-- positions that CSS leaves as they are and that are on the line: between 0 and 1, and none below one before it -/
def Proper (s : List (Option ℚ)) : Prop :=
  (s.filterMap id).Pairwise (· ≤ ·) ∧ ∀ v, some v ∈ s → 0 ≤ v ∧ v ≤ 1

/-- the stops are in order, and neighbours are either at the same position or not too near -/
def Apart (stops : List Stop) : Prop :=
  stops.Pairwise (fun a b => a.off ≤ b.off) ∧
  ∀ l a b r, stops = l ++ a :: b :: r → a.off = b.off ∨ epsilon < b.off - a.off

/-- all the stops are equally transparent -/
def SameAlpha (stops : List Stop) : Prop := ∀ x ∈ stops, ∀ y ∈ stops, x.color.a = y.color.a

end Verif.Gradient
