import Verif.BgLayers.Model

/-! # Specification: lists of backgrounds (CSS Backgrounds 3, 2.1, 2.4, 2.6, 2.9) -/
namespace Verif.BgLayers

/-- the value of a property: the groups with commas between them -/
def written : List (List Tok) → List Val
  | [] => []
  | [g] => g.map .tok
  | g :: g' :: r => g.map .tok ++ .comma :: written (g' :: r)

/-- "the list is repeated until there are enough values": the group for the layer `i` -/
def Cycled (gs : List (List Tok)) (i : Nat) (g : List Tok) : Prop := ∃ rounds j, i = rounds * gs.length + j ∧ gs[j]? = some g

/-- two lengths -/
def TwoLengths (g : List Tok) (p : Int × Int) : Prop := g = [.len p.1, .len p.2]

/-- whether a word for one axis repeats -/
inductive Axis : String → Bool → Prop
  | yes : Axis "repeat" true
  | no : Axis "no-repeat" false

/-- the words for repetition -/
inductive Repeats : List Tok → Bool × Bool → Prop
  | x : Repeats [.kw "repeat-x"] (true, false)
  | y : Repeats [.kw "repeat-y"] (false, true)
  | both {k b} : Axis k b → Repeats [.kw k] (b, b)
  | each {k k' b b'} : Axis k b → Axis k' b' → Repeats [.kw k, .kw k'] (b, b')

/-- what a list says for the layer `i`, in the sense `R` of its groups; `d` is the value of a property that is not set -/
def Says {α : Type} (R : List Tok → α → Prop) (d : α) (l : Option (List Val)) (i : Nat) (a : α) : Prop :=
  (l = none ∧ a = d) ∨ ∃ gs g, l = some (written gs) ∧ Cycled gs i g ∧ R g a

end Verif.BgLayers
