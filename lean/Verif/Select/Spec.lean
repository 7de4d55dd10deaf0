import Verif.Select.Model
import Verif.Dom.Spec

/-!
# Specification vocabulary for C43, C45 and C46

A selector is written here as CSS writes it: compounds (lists of simple selectors on one element) joined from
left to right by combinators.
-/
namespace Verif.Select
open Verif

/-- the combinators of CSS between two compounds -/
inductive Rel
  | descendant | child | next | subsequent
  deriving DecidableEq, Repr

/-- a complex selector: a compound, or a complex selector, a combinator and a compound to its right -/
inductive Complex
  | compound (c : List Simple)
  | link (left : Complex) (k : Rel) (c : List Simple)
  deriving DecidableEq, Repr

/-- how the parser writes the combinator -/
def Rel.comb : Rel → Comb
  | .descendant => .descendant
  | .child => .child
  | .next => .next
  | .subsequent => .subsequent

/-- the list of parts of a complex selector, in the order of the text -/
def Complex.parts : Complex → List Part
  | .compound c => c.map .simple
  | .link l k c => l.parts ++ .comb k.comb :: c.map .simple

/-- `y` is the parent of `x` -/
def Parent (v : View) (x y : Nat) : Prop := v.parent x = some y

/-- `y` and `x` are children of one node, `y` before `x`, with the nodes `t` in between -/
def Before (v : View) (x y : Nat) (t : List Nat) : Prop :=
  ∃ p a b, v.parent x = some p ∧ v.children p = a ++ y :: t ++ x :: b

/-- what a combinator asks of the elements `x` (right) and `y` (left) -/
def Related (v : View) : Rel → Nat → Nat → Prop
  | .descendant, x, y => Relation.TransGen (Parent v) x y
  | .child, x, y => Parent v x y
  | .next, x, y => ∃ t, Before v x y t ∧ ∀ z ∈ t, v.isElem z = false
  | .subsequent, x, y => ∃ t, Before v x y t

/-- what an attribute selector asks of the value of the attribute (Selectors Level 4, 6) -/
def AttrSat (m : Matcher) (wanted got : Str) : Prop :=
  match m with
  | .none => True
  | .equals => got = wanted
  | .includes => Dom.IsWord wanted got
  | .dash => got = wanted ∨ ∃ r, got = wanted ++ '-' :: r
  | .pre => wanted ≠ [] ∧ ∃ r, got = wanted ++ r
  | .suf => wanted ≠ [] ∧ ∃ l, got = l ++ wanted
  | .sub => wanted ≠ [] ∧ ∃ l r, got = l ++ wanted ++ r

/-- an attribute selector, with the `i` flag comparing without regard to case -/
def AttrMatch (v : View) (x : Nat) (a : AttrSel) : Prop :=
  ∃ got, v.attr x a.name = some got ∧
    if a.caseInsensitive then AttrSat a.matcher (lower a.value) (lower got) else AttrSat a.matcher a.value got

/-- `x` is a child of `p` with the given siblings before and after it -/
def Among (v : View) (x : Nat) (P : List Nat → List Nat → Prop) : Prop :=
  ∃ p a b, v.parent x = some p ∧ v.children p = a ++ x :: b ∧ P a b

/-- the elements that can be disabled (HTML, 4.10.19.5) -/
def formTags : List Str :=
  ["button".toList, "input".toList, "select".toList, "textarea".toList, "optgroup".toList, "option".toList,
   "fieldset".toList]

/-- the elements that can be edited (HTML, 4.16.3) -/
def editTags : List Str := ["input".toList, "textarea".toList]

/-- an `input` that is a check box or a radio button -/
def IsCheckable (v : View) (x : Nat) : Prop :=
  v.tag x = some "input".toList ∧
    ∃ t, v.attr x "type".toList = some t ∧ (lower t = "checkbox".toList ∨ lower t = "radio".toList)

/-- an element the user can edit; `contenteditable` and the kinds of `input` are left out -/
def Editable (v : View) (x : Nat) : Prop :=
  (∃ t ∈ editTags, v.tag x = some t) ∧ v.attr x "readonly".toList = none ∧ v.attr x "disabled".toList = none

/-- What a pseudo-class asks of an element.  The form states are those of a page no one has interacted with;
`fieldset` ancestors are left out. -/
def PseudoSat (v : View) (x : Nat) : Pseudo → Prop
  | .hover => v.hovered x = true
  | .focus => v.focused x = true
  | .link => (∃ t ∈ ["a".toList, "area".toList, "link".toList], v.tag x = some t) ∧ ∃ u, v.attr x "href".toList = some u
  | .firstChild => Among v x fun a _ => ∀ y ∈ a, v.isElem y = false
  | .lastChild => Among v x fun _ b => ∀ y ∈ b, v.isElem y = false
  | .onlyChild => Among v x fun a b => ∀ y ∈ a ++ b, v.isElem y = false
  | .firstOfType => Among v x fun a _ => ∀ y ∈ a, v.tag y ≠ v.tag x
  | .lastOfType => Among v x fun _ b => ∀ y ∈ b, v.tag y ≠ v.tag x
  | .onlyOfType => Among v x fun a b => ∀ y ∈ a ++ b, v.tag y ≠ v.tag x
  | .root => ∀ p, v.parent x = some p → v.isElem p = false
  | .disabled => (∃ t ∈ formTags, v.tag x = some t) ∧ v.attr x "disabled".toList ≠ none
  | .enabled => (∃ t ∈ formTags, v.tag x = some t) ∧ v.attr x "disabled".toList = none
  | .readWrite => Editable v x
  | .readOnly => ¬ Editable v x
  | .checked => (IsCheckable v x ∧ v.attr x "checked".toList ≠ none) ∨
      (v.tag x = some "option".toList ∧ v.attr x "selected".toList ≠ none)

/-- the names CSS gives to the pseudo-classes -/
def Pseudo.names : Pseudo → List Str
  | .hover => ["hover".toList]
  | .link => ["link".toList, "any-link".toList, "-webkit-any-link".toList]
  | .firstChild => ["first-child".toList]
  | .lastChild => ["last-child".toList]
  | .firstOfType => ["first-of-type".toList]
  | .lastOfType => ["last-of-type".toList]
  | .onlyChild => ["only-child".toList]
  | .onlyOfType => ["only-of-type".toList]
  | .root => ["root".toList]
  | .checked => ["checked".toList]
  | .disabled => ["disabled".toList]
  | .enabled => ["enabled".toList]
  | .readOnly => ["read-only".toList]
  | .readWrite => ["read-write".toList]
  | .focus => ["focus".toList, "focus-visible".toList]

/-- a pseudo-class by its name -/
def PseudoNamed (v : View) (x : Nat) (n : Str) : Prop := ∃ k : Pseudo, n ∈ k.names ∧ PseudoSat v x k

/-- what a simple selector asks of an element; `ps` is the pseudo-element looked for, if any -/
def Sat (v : View) (ps : Option Str) (x : Nat) : Simple → Prop
  | .universal => True
  | .type n => v.tag x = some n
  | .cls n => v.hasClass x n = true
  | .id n => v.attr x "id".toList = some n
  | .attr a => AttrMatch v x a
  | .pseudo n => PseudoNamed v x n
  | .pseudoElem n => ∃ t, ps = some t ∧ lower n = lower t

/-- the element matches the compound -/
def OnElement (v : View) (ps : Option Str) (x : Nat) (c : List Simple) : Prop :=
  v.isElem x = true ∧ ∀ s ∈ c, Sat v ps x s

/-- The CSS definition: the element matches the rightmost compound, and an element that stands to it as the
combinator says matches the rest of the selector. -/
def Matches (v : View) (ps : Option Str) : Nat → Complex → Prop
  | x, .compound c => OnElement v ps x c
  | x, .link l k c => OnElement v ps x c ∧ ∃ y, Related v k x y ∧ Matches v ps y l

/-- What holds of every document: `anc` follows `parent`; a child names its parent and is listed once; a node
that names a parent is listed by it unless the parent was removed; only elements have tags, attributes and classes, and every element has a tag. -/
structure View.Ok (v : View) : Prop where
  anc : ∀ x, v.anc x = (v.parent x).elim [] fun p => p :: v.anc p
  child : ∀ p c, c ∈ v.children p → v.parent c = some p
  listed : ∀ p c, v.parent c = some p → c ∈ v.children p ∨ v.children p = []
  nodup : ∀ p, (v.children p).Nodup
  tag : ∀ x, (v.tag x).isSome = v.isElem x
  attr : ∀ x k, v.isElem x = false → v.attr x k = none
  cls : ∀ x k, v.isElem x = false → v.hasClass x k = false

/-- no node has a child that is not an element -/
def ElementsOnly (v : View) : Prop := ∀ p, ∀ c ∈ v.children p, v.isElem c = true

/-- the simple selectors the matcher handles as CSS asks on every element: case-sensitive attribute selectors
other than `~=`, non-empty values for `^=`, `$=` and `*=`, and the pseudo-classes named above other than those for
form controls, `:first-child` and `:last-child` only where there are no text nodes -/
def Plain (v : View) : Simple → Prop
  | .attr a => a.caseInsensitive = false ∧ a.matcher ≠ .includes ∧
      (a.matcher = .pre ∨ a.matcher = .suf ∨ a.matcher = .sub → a.value ≠ [])
  | .pseudo n => ∃ k : Pseudo, n ∈ k.names ∧ k ∉ [Pseudo.checked, .disabled, .enabled, .readOnly, .readWrite] ∧
      (k = .firstChild ∨ k = .lastChild → ElementsOnly v)
  | _ => True

/-- simple selectors that the matcher never accepts for a node that is not an element -/
def Pins : Simple → Bool
  | .type _ => true
  | .cls _ => true
  | .id _ => true
  | .attr _ => true
  | .pseudo n => decide (pseudoOf n ∈ [some Pseudo.link, some .firstOfType, some .lastOfType, some .onlyChild,
      some .root])
  | _ => false

/-- all simple selectors are plain -/
def Complex.Fine (v : View) : Complex → Prop
  | .compound c => (∀ s ∈ c, Plain v s)
  | .link l _ c => (∀ s ∈ c, Plain v s) ∧ l.Fine v

/-- the rightmost compound -/
def Complex.last : Complex → List Simple
  | .compound c => c
  | .link _ _ c => c

/-- every compound to the left of a combinator contains a simple selector that pins it to an element -/
def Complex.Pinned : Complex → Prop
  | .compound _ => True
  | .link l _ _ => (∃ s ∈ l.last, Pins s = true) ∧ l.Pinned

/-- the combinator to the left of the rightmost compound, if any, goes up the tree -/
def Complex.goesUp : Complex → Prop
  | .compound _ => True
  | .link _ k _ => k = .descendant ∨ k = .child

/-- every compound to the left of `~` is a single simple selector, and what is to its left goes up -/
def Complex.SibTame : Complex → Prop
  | .compound _ => True
  | .link l k _ => l.SibTame ∧ (k = .subsequent → l.last.length = 1 ∧ l.goesUp)

/-- only descendant combinators, and single simple selectors to their left -/
def Complex.AllDesc : Complex → Prop
  | .compound _ => True
  | .link l k _ => k = .descendant ∧ l.last.length = 1 ∧ l.AllDesc

/-- to the left of a descendant combinator there are only single simple selectors and descendant
combinators; `+` only where there are no text nodes -/
def Complex.DescTame (v : View) : Complex → Prop
  | .compound _ => True
  | .link l k _ => l.DescTame v ∧ (k = .descendant → l.last.length = 1 ∧ l.AllDesc) ∧ (k = .next → ElementsOnly v)

/-- the node and all elements above it have a parent (the document at the top) -/
def Rooted (v : View) (x : Nat) : Prop :=
  ∀ y, Relation.ReflTransGen (Parent v) x y → v.isElem y = true → (v.parent y).isSome = true

/-! ## Specificity -/

/-- the counts CSS defines (Selectors Level 4, 17): ids; classes, attributes and pseudo-classes; types and
pseudo-elements -/
def cssSpecificity (parts : List Part) : Spec3 where
  a := parts.countP fun p => match p with | .simple (.id _) => true | _ => false
  b := parts.countP fun p => match p with
    | .simple (.cls _) => true | .simple (.attr _) => true | .simple (.pseudo _) => true | _ => false
  c := parts.countP fun p => match p with
    | .simple (.type _) => true | .simple (.pseudoElem _) => true | _ => false

/-- no attribute selectors, pseudo-classes or pseudo-elements -/
def Basic (parts : List Part) : Prop :=
  ∀ p ∈ parts, ∀ s, p = .simple s → match s with
    | .attr _ => False | .pseudo _ => False | .pseudoElem _ => False | _ => True

/-- lexicographic comparison of specificities -/
def Spec3.Less (s t : Spec3) : Prop := s.a < t.a ∨ s.a = t.a ∧ (s.b < t.b ∨ s.b = t.b ∧ s.c < t.c)

/-! ## Hover -/

/-- the two documents differ at most in which nodes are hovered -/
structure HoverDiff (v w : View) : Prop where
  parent : w.parent = v.parent
  children : w.children = v.children
  isElem : w.isElem = v.isElem
  tag : w.tag = v.tag
  ns : w.ns = v.ns
  attr : w.attr = v.attr
  hasClass : w.hasClass = v.hasClass
  focused : w.focused = v.focused
  anc : w.anc = v.anc

/-- the node has a tag, class or id named in the fingerprint, or the fingerprint is universal -/
def Touched (fp : Prints) (v : View) (x : Nat) : Prop :=
  fp.universal = true ∨ (∃ t ∈ fp.types, v.tag x = some t) ∨ (∃ c ∈ fp.classes, v.hasClass x c = true) ∨
    ∃ i ∈ fp.ids, v.attr x "id".toList = some i

/-- every node whose hover state differs is untouched by the fingerprint of the selectors -/
def Insensitive (lists : List (List Part)) (v w : View) : Prop :=
  ∀ x, v.hovered x ≠ w.hovered x → ¬ Touched (hoverPrints lists) v x

/-- In the order of the text: directly before a descendant or `~` combinator stands a simple selector other
than `:hover`. -/
def HoverTame (l : List Part) : Prop :=
  ∀ pre p c post, l = pre ++ p :: .comb c :: post → c = .descendant ∨ c = .subsequent →
    ∃ s, p = .simple s ∧ s ≠ hoverPart

/-- the document with another set of hovered nodes -/
def View.hover (v : View) (l : List Nat) : View := { v with hovered := fun x => decide (x ∈ l) }

/-- the nodes CSS calls hovered when the pointer is on `leaf`: it and the nodes above it -/
def View.chain (v : View) : Option Nat → List Nat
  | none => []
  | some x => x :: v.anc x

end Verif.Select
