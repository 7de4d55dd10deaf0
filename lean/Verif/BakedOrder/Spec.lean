import Verif.BakedOrder.Model

/-! # Specification: back to front -/
namespace Verif.BakedOrder

/-- `a` is before `b` in the list -/
def Before (l : List Nat) (a b : Nat) : Prop := ∃ p q r, l = p ++ a :: q ++ b :: r

/-- the table knows the tile under this key, in one of the layers -/
def Known (layers : List Nat) (tilesOf : Nat → List Nat) (arena : Nat → Option Key) (k : Key) : Prop :=
  ∃ l ∈ layers, ∃ i ∈ tilesOf l, arena i = some k

/-- the tiles found for a layer are in this layer -/
def Sound (tilesOf : Nat → List Nat) (arena : Nat → Option Key) : Prop :=
  ∀ l, ∀ i ∈ tilesOf l, ∀ k, arena i = some k → k.layer = l

end Verif.BakedOrder
