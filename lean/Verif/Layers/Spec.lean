import Verif.Layers.Model

/-!
# Specification of layers

The vocabulary of the claims C54, C57 and C68-C71.  A layout tree is read as the list of its elements
in document order, each with its ancestors; what makes an element the start of a layer, its stacking
level and the layer it belongs to are said from that list, without a traversal that carries state.
-/
namespace Verif.Layers
open Verif.Map

/-- An element of the tree with its ancestors, nearest first. -/
structure Occ where
  self : Elem
  ancestors : List Elem
deriving DecidableEq

mutual
/-- The elements of a tree in document order (a parent, then its children from first to last). -/
def occs (above : List Elem) : LTree → List Occ
  | .missing => []
  | .node e cs => ⟨e, above⟩ :: occsAll (e :: above) cs
/-- The elements of sibling trees in document order. -/
def occsAll (above : List Elem) : List LTree → List Occ
  | [] => []
  | t :: r => occs above t ++ occsAll above r
end

/-- The elements of a whole tree. -/
def elems (t : LTree) : List Occ := occs [] t

/-- The ids of a whole tree in document order. -/
def docOrder (t : LTree) : List Nat := (elems t).map (·.self.id)

/-- The element is blended or moved as a unit: translucent, `fixed` or `sticky`. -/
def Forced (e : Elem) : Prop := e.opacity < 1 ∨ e.position = .fixed ∨ e.position = .sticky

/-- The element is positioned and has a z-index. -/
def HasZ (e : Elem) : Prop := e.position ≠ .other ∧ e.zIndex ≠ none

/-- Some ancestor is already a group of its own. -/
def InGroup (above : List Elem) : Prop := ∃ a ∈ above, Forced a ∨ HasZ a

/-- The element starts a layer that its descendants share. -/
def Promoted (e : Elem) (above : List Elem) : Prop := Forced e ∨ (HasZ e ∧ ¬ InGroup above)

/-- The element starts a layer: a group, or an image on its own outside any group. -/
def Starts (o : Occ) : Prop :=
  Promoted o.self o.ancestors ∨ (o.self.isImg = true ∧ ¬ InGroup o.ancestors)

instance (e : Elem) : Decidable (Forced e) := inferInstanceAs (Decidable (_ ∨ _))
instance (e : Elem) : Decidable (HasZ e) := inferInstanceAs (Decidable (_ ∧ _))
instance (l : List Elem) : Decidable (InGroup l) := inferInstanceAs (Decidable (∃ a ∈ l, _))
instance (e : Elem) (l : List Elem) : Decidable (Promoted e l) := inferInstanceAs (Decidable (_ ∨ _))
instance (o : Occ) : Decidable (Starts o) := inferInstanceAs (Decidable (_ ∨ _))

/-- The nearest element of a chain (given nearest first) that starts a group. -/
def groupOf : List Elem → Option Elem
  | [] => none
  | e :: above => if Promoted e above then some e else groupOf above

/-- The element whose layer an element is painted in; `none` is the layer of the page. -/
def leader (o : Occ) : Option Elem :=
  if Starts o then some o.self else groupOf o.ancestors

/-- The stacking level of a chain: the z-index of the nearest element that has one, or 0. -/
def levelOf : List Elem → Int
  | [] => 0
  | e :: above => if e.position ≠ .other then e.zIndex.getD (levelOf above) else levelOf above

/-- The stacking level of an element. -/
def level (o : Occ) : Int := levelOf (o.self :: o.ancestors)

/-- An opacity brought into [0,1]. -/
def clamp01 (q : ℚ) : ℚ := max 0 (min 1 q)

/-- How the layer started by an element follows the scrolling of the page. -/
def anchorSpec (e : Elem) : Anchor :=
  if e.position = .sticky then .sticky ⟨e.insetTop, e.insetLeft, e.margin, e.cage.getD e.margin⟩
  else if e.position = .fixed then .fixed else .scroll

/-- What a layer is, apart from its number. -/
structure Desc where
  order : Int
  opacity : ℚ
  anchor : Anchor
  elements : List Nat
deriving DecidableEq

/-- The members of the layer started by `l` (`none`: of the page), in document order. -/
def membersOf (t : LTree) (l : Option Nat) : List Nat :=
  ((elems t).filter fun o => (leader o).map Elem.id = l).map (·.self.id)

/-- The layer of the page. -/
def pageLayer (t : LTree) : Desc := ⟨0, 1, .scroll, membersOf t none⟩

/-- The layer started by an element. -/
def layerStartedBy (t : LTree) (o : Occ) : Desc :=
  ⟨level o, clamp01 o.self.opacity, anchorSpec o.self, membersOf t (some o.self.id)⟩

/-- The layers of a tree in document order of the elements that start them. -/
def layersInDocOrder (t : LTree) : List Desc :=
  pageLayer t :: ((elems t).filter fun o => Starts o).map (layerStartedBy t)

/-- A layer without its number. -/
def Layer.desc (l : Layer) : Desc := ⟨l.order, l.opacity, l.anchor, l.elements⟩

/-- The layers of a list, bottom first, as the compositor walks them. -/
def paintLayers (s : State) : List Layer := s.ids.filterMap (look s.layers)

/-- The elements of a list in paint order, each with the anchor of its layer. -/
def painted (s : State) : List (Anchor × Nat) :=
  (paintLayers s).flatMap fun l => l.elements.map fun i => (l.anchor, i)

/-- The elements of a list in paint order. -/
def paintOrder (s : State) : List Nat := (paintLayers s).flatMap Layer.elements

/-- The first of two numbers comes before the second in a list. -/
def Before (l : List Nat) (a b : Nat) : Prop := [a, b].Sublist l

/-- Where a box of the page is seen, and whether it covers a point of the viewport there. -/
def Covers (node : Nat → Option Elem) (vx vy sx sy : ℚ) (p : Anchor × Nat) : Prop :=
  ∃ e, node p.2 = some e ∧
    (anchoredPos e.margin.x e.margin.y sx sy p.1).1 ≤ vx ∧
    vx < (anchoredPos e.margin.x e.margin.y sx sy p.1).1 + e.margin.width ∧
    (anchoredPos e.margin.x e.margin.y sx sy p.1).2 ≤ vy ∧
    vy < (anchoredPos e.margin.x e.margin.y sx sy p.1).2 + e.margin.height

/-- The product of the opacities of a chain of elements. -/
def cssOpacity (chain : List Elem) : ℚ := (chain.map fun e => clamp01 e.opacity).prod

end Verif.Layers
