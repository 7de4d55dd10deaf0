import Verif.Textures.Model

/-! # Specification: a store that forgets nothing -/
namespace Verif.Textures

/-- what a user adds: sizes, pixels, format -/
structure Item where
  width : Nat
  height : Nat
  pixels : Pixels
  format : Nat
  deriving DecidableEq

/-- one call: the identifier given for the item, and the store after it -/
def call (s : Store) (i : Item) : Nat × Store :=
  match i.pixels with
  | .cpu d => s.add i.width i.height d i.format
  | .gpu g => s.addGpu i.width i.height g i.format

/-- a history of calls from an empty store, with the identifiers given, oldest first -/
inductive History : List (Nat × Item) → Store → Prop
  | start : History [] Store.new
  | step {h s} (i : Item) : History h s → History (h ++ [((call s i).1, i)]) (call s i).2

end Verif.Textures
