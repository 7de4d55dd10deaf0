import Verif.CssMath.Model

/-! # Specification: lengths and comparisons of CSS (CSS Values 4, 5.1, 6, 10.2) -/
namespace Verif.CssMath

/-- the sizes of the units in px: `c u` is the size of `u`, in a viewport of `w` by `h`, where the font of the element has
the size `em` and that of the root `rem` -/
structure Sizes (w h em rem : ℚ) (c : String → ℚ) : Prop where
  px : c "px" = 1
  inch : c "in" = 96 * c "px"
  cm : 254 * c "cm" = 100 * c "in"
  mm : 10 * c "mm" = c "cm"
  q : 40 * c "q" = c "cm"
  pt : 72 * c "pt" = c "in"
  pc : 6 * c "pc" = c "in"
  em : c "em" = em
  rem : c "rem" = rem
  width : ∀ u ∈ ["vw", "svw", "lvw", "dvw"], 100 * c u = w
  height : ∀ u ∈ ["vh", "svh", "lvh", "dvh"], 100 * c u = h
  vmin : 100 * c "vmin" = min w h
  vmax : 100 * c "vmax" = max w h

/-- the units above -/
def knownUnits : List String :=
  ["px", "in", "cm", "mm", "q", "pt", "pc", "em", "rem", "vw", "svw", "lvw", "dvw", "vh", "svh", "lvh", "dvh", "vmin", "vmax"]

/-- the argument is a length of `x` px -/
inductive Length (c : String → ℚ) : Value → ℚ → Prop
  | unit {v u} : Length c (.unit v u) (v * c u)
  | zero : Length c .zero 0

/-- all the arguments are lengths in known units, with commas between them -/
def Lengths (vs : List Value) : Prop :=
  ∀ v ∈ vs, v = .comma ∨ v = .zero ∨ ∃ x u, v = .unit x u ∧ u ∈ knownUnits

end Verif.CssMath
