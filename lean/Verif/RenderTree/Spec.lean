import Verif.RenderTree.Model

/-! # What generated content and the render tree should be

The tree of a page as CSS sees it has the nodes of the document and, for an element, a `::before` box
as its first and an `::after` box as its last child, each with the generated text as its only child.
The render tree has the nodes that are shown. -/

namespace Verif.RenderTree

/-- A node of the page. -/
inductive GNode where
  | real (n : Nat)
  | box (owner : Nat) (after : Bool)
  | text (owner : Nat) (after : Bool)
deriving DecidableEq, Repr

/-- The children of a node, in order. -/
def GNode.kids (d : Real) : GNode → List GNode
  | .real n =>
    (match d.pseudo n false with
     | some _ => [.box n false]
     | none => []) ++ (d.children n).map .real ++
    (match d.pseudo n true with
     | some _ => [.box n true]
     | none => [])
  | .box n b =>
    match d.pseudo n b with
    | some ⟨some _, _⟩ => [.text n b]
    | _ => []
  | .text _ _ => []

/-- The parent of a node. -/
def GNode.parent (d : Real) : GNode → Option GNode
  | .real n => (d.parent n).map .real
  | .box n _ => some (.real n)
  | .text n b => some (.box n b)

/-- Whether a node is a node of the page. -/
def GNode.Here (d : Real) (here : Nat → Prop) : GNode → Prop
  | .real n => here n
  | .box n b => here n ∧ ∃ pb, d.pseudo n b = some pb
  | .text n b => here n ∧ ∃ t dn, d.pseudo n b = some ⟨some t, dn⟩

/-- The element, text or comment that a node is. -/
def GNode.kind (d : Real) : GNode → Kind
  | .real n => match d.kind n with
    | .document => .element
    | .element => .element
    | .text => .text
    | .comment => .comment
    | .doctype => .comment
  | .box _ _ => .element
  | .text _ _ => .text

/-- The text of a text. -/
def GNode.content (d : Real) : GNode → Option String
  | .real n => if d.kind n = .text then some (d.text n) else none
  | .box _ _ => none
  | .text n b => (d.pseudo n b).bind PseudoBox.text

/-- The owner is a node of a document, whose ids are small. -/
def GNode.Small : GNode → Prop
  | .real n => n < 2 ^ 60
  | .box n _ => n < 2 ^ 60
  | .text n _ => n < 2 ^ 60

/-- The id by which the engine knows a node. -/
def GNode.id : GNode → Nat
  | .real n => n
  | .box n b => 2 ^ 62 + 4 * n + (if b then 1 else 0)
  | .text n b => 2 ^ 62 + 4 * n + (if b then 3 else 2)

/-- A document is a tree: its nodes are small numbers, it is closed under children, and a node is a
child of its parent and of no other. -/
structure Real.Tree (d : Real) (here : Nat → Prop) : Prop where
  small : ∀ n, here n → n < 2 ^ 60
  closed : ∀ n, here n → ∀ c ∈ d.children n, here c
  up : ∀ n, here n → ∀ p, d.parent n = some p ↔ here p ∧ n ∈ d.children p

/-- Elements that are never shown, and elements that `display: none` takes out. -/
def Hidden (d : Doc) (n : Nat) : Prop :=
  d.kind n = .comment ∨
  (d.kind n = .element ∧
    (d.tag n = some "head" ∨ d.tag n = some "style" ∨ d.tag n = some "script" ∨ d.tag n = some "meta" ∨
     d.tag n = some "link" ∨ d.tag n = some "title" ∨ d.displayNone n = true))

/-- The nodes that are shown: neither they nor any node above them is hidden. -/
inductive Shown (d : Doc) (root : Nat) : Nat → Prop where
  | root : ¬ Hidden d root → Shown d root root
  | child {p c} : Shown d root p → c ∈ d.children p → ¬ Hidden d c → Shown d root c

/-- The part of the document below a node is finite. -/
inductive Finite (d : Doc) : Nat → Prop where
  | mk (n : Nat) : (∀ c ∈ d.children n, Finite d c) → Finite d n

/-- Hidden nodes are left out of a list. -/
inductive Without (d : Doc) : List Nat → List Nat → Prop where
  | nil : Without d [] []
  | hidden {n l l'} : Hidden d n → Without d l l' → Without d (n :: l) l'
  | shown {n l l'} : ¬ Hidden d n → Without d l l' → Without d (n :: l) (n :: l')

end Verif.RenderTree
