import Verif.Dom.Model

/-!
# Model of selector matching

Files modelled (in /repo/crates): `gosub_css3/src/matcher/styling.rs:26-358`,
`gosub_css3/src/stylesheet.rs` (selector types and `Specificity`), `gosub_css3/src/system.rs:293-346`
(`hover_fingerprints_impl`), `gosub_engine/src/engine/context.rs:53-76`, `895-1000` (hover handling).

A document is seen through the methods of the `Document` trait that matching calls (`View`); `View.ofDoc`
gives the view of a modelled document.  Simplifications: `cow_to_lowercase` is ASCII lower-casing; the one
Rust enum `CssSelectorPart` is split into simple selectors and combinators.
-/
namespace Verif.Select
open Verif Verif.Map

/-- The document methods matching uses (`gosub_interface/src/document.rs`).  `anc` lists the nodes met when
`parent` is followed from a node until there is none. -/
structure View where
  parent : Nat → Option Nat
  children : Nat → List Nat
  isElem : Nat → Bool
  tag : Nat → Option Str
  ns : Nat → Option Str
  attr : Nat → Str → Option Str
  hasClass : Nat → Str → Bool
  hovered : Nat → Bool
  focused : Nat → Bool
  anc : Nat → List Nat

/-- the nodes above a node of a modelled document: `document_impl.rs:132-134` repeated -/
def ancOf (d : Dom.Doc) (i : Nat) : List Nat :=
  match Dom.parent d i with
  | none => []
  | some p => (Dom.climb d (d.nodes.length + 2) p).getD []

/-- the methods of `document_impl.rs` (132-138, 140-250) on a modelled document -/
def View.ofDoc (d : Dom.Doc) : View where
  parent := Dom.parent d
  children := Dom.children d
  isElem i := ((Dom.nodeAt d i).bind Dom.elemOf).isSome
  tag i := ((Dom.nodeAt d i).bind Dom.elemOf).map (·.name)
  ns i := ((Dom.nodeAt d i).bind Dom.elemOf).map (·.ns)
  attr := Dom.attr d
  hasClass := Dom.hasClass d
  hovered := Dom.isHovered d
  focused i := decide (d.focused = some i)
  anc := ancOf d

/-- `stylesheet.rs`: `MatcherType` -/
inductive Matcher
  | none | equals | includes | dash | pre | suf | sub
  deriving DecidableEq, Repr

/-- `stylesheet.rs`: `AttributeSelector` -/
structure AttrSel where
  name : Str
  matcher : Matcher
  value : Str
  caseInsensitive : Bool
  deriving DecidableEq, Repr

/-- `stylesheet.rs`: `Combinator` -/
inductive Comb
  | descendant | child | next | subsequent | column | namespace
  deriving DecidableEq, Repr

/-- `stylesheet.rs`: `CssSelectorPart` without `Combinator` -/
inductive Simple
  | universal
  | type (n : Str)
  | cls (n : Str)
  | id (n : Str)
  | attr (a : AttrSel)
  | pseudo (n : Str)
  | pseudoElem (n : Str)
  deriving DecidableEq, Repr

/-- `stylesheet.rs`: `CssSelectorPart` -/
inductive Part
  | simple (s : Simple)
  | comb (c : Comb)
  deriving DecidableEq, Repr

/-- `str::contains` for a string -/
def hasSub (w : Str) : Str → Bool
  | [] => w.isEmpty
  | c :: r => w.isPrefixOf (c :: r) || hasSub w r

/-- `styling.rs:130-140`: `wanted` from the selector, `got` from the element -/
def attrCompare (m : Matcher) (wanted got : Str) : Bool :=
  match m with
  | .none => true
  | .equals => decide (wanted = got)
  | .includes => (Dom.words wanted).any fun s => decide (s = got)
  | .dash => decide (got = wanted) || (wanted ++ ['-']).isPrefixOf got
  | .pre => wanted.isPrefixOf got
  | .suf => wanted.isSuffixOf got
  | .sub => hasSub wanted got

/-- `styling.rs:108-141` -/
def attrB (v : View) (x : Nat) (a : AttrSel) : Bool :=
  if !v.isElem x then false else
  match v.attr x a.name with
  | none => false
  | some got =>
    if a.caseInsensitive then attrCompare a.matcher (lower a.name) (lower got)
    else attrCompare a.matcher a.value got

/-- the siblings of a node with its tag name: `styling.rs:170-181` -/
def sameTag (v : View) (p : Nat) (t : Str) : List Nat :=
  (v.children p).filter fun c => decide (v.tag c = some t)

/-- the children that are elements: `styling.rs:199-204` -/
def elemChildren (v : View) (p : Nat) : List Nat := (v.children p).filter v.isElem

/-- `f` for the parent if there is one, else `false` -/
def withParent (v : View) (x : Nat) (f : Nat → Bool) : Bool :=
  match v.parent x with
  | some p => f p
  | none => false

/-- `f` for the tag name if there is one, else `false` -/
def withTag (v : View) (x : Nat) (f : Str → Bool) : Bool :=
  match v.tag x with
  | some t => f t
  | none => false

/-- the implemented pseudo-classes, `styling.rs:142-244` -/
inductive Pseudo
  | hover | link | firstChild | lastChild | firstOfType | lastOfType | onlyChild | onlyOfType | root
  | checked | disabled | enabled | readOnly | readWrite | focus
  deriving DecidableEq, Repr

/-- the names of the pseudo-classes, `styling.rs:142-244` -/
def pseudoNames : List (Str × Pseudo) :=
  [("hover".toList, .hover), ("link".toList, .link), ("any-link".toList, .link),
   ("-webkit-any-link".toList, .link), ("first-child".toList, .firstChild), ("last-child".toList, .lastChild),
   ("first-of-type".toList, .firstOfType), ("last-of-type".toList, .lastOfType),
   ("only-child".toList, .onlyChild), ("only-of-type".toList, .onlyOfType), ("root".toList, .root),
   ("checked".toList, .checked), ("disabled".toList, .disabled), ("enabled".toList, .enabled),
   ("read-only".toList, .readOnly), ("read-write".toList, .readWrite), ("focus".toList, .focus),
   ("focus-visible".toList, .focus)]

/-- the pseudo-class of a name, `styling.rs:142-244`; `none`: never matches (also `visited`, `active`) -/
def pseudoOf (n : Str) : Option Pseudo := look pseudoNames n

/-- `styling.rs:142-244` -/
def pseudoB (v : View) (x : Nat) : Pseudo → Bool
  | .hover => v.hovered x
  | .link => v.isElem x && withTag v x (fun t => decide (t ∈ ["a".toList, "area".toList, "link".toList])) &&
      (v.attr x "href".toList).isSome
  | .firstChild => withParent v x fun p => decide ((v.children p).head? = some x)
  | .lastChild => withParent v x fun p => decide ((v.children p).getLast? = some x)
  | .firstOfType => withParent v x fun p => withTag v x fun t => decide ((sameTag v p t).head? = some x)
  | .lastOfType => withParent v x fun p => withTag v x fun t => decide ((sameTag v p t).getLast? = some x)
  | .onlyChild => withParent v x fun p => decide (elemChildren v p = [x])
  | .onlyOfType => withParent v x fun p => withTag v x fun t => decide ((sameTag v p t).length = 1)
  | .root => v.isElem x && !withParent v x v.isElem
  | .checked => (v.attr x "checked".toList).isSome
  | .disabled => (v.attr x "disabled".toList).isSome
  | .enabled => (v.attr x "disabled".toList).isNone && v.isElem x
  | .readOnly => (v.attr x "readonly".toList).isSome
  | .readWrite => (v.attr x "readonly".toList).isNone && (v.attr x "disabled".toList).isNone && v.isElem x
  | .focus => v.focused x

/-- `styling.rs:92-249`: the parts that look only at the current node.  `ps` is the pseudo-element whose
style is computed (`pseudo_eq`, 52-54). -/
def simpleB (v : View) (ps : Option Str) (x : Nat) : Simple → Bool
  | .universal => true
  | .type n => v.isElem x && decide (v.tag x = some n)
  | .cls n => v.hasClass x n
  | .id n => v.isElem x && decide (v.attr x "id".toList = some n)
  | .attr a => attrB v x a
  | .pseudo n => match pseudoOf n with
    | some k => pseudoB v x k
    | none => false
  | .pseudoElem n => match ps with
    | some t => eqIgnoreCase n t
    | none => false

/-- the variables matching changes: the next node to look at and the remaining parts, last part first
(`consume`, `styling.rs:56-64`, takes the last part) -/
structure Cur where
  next : Option Nat
  parts : List Part
  deriving DecidableEq, Repr

/-- the loops of `styling.rs:259-271` (`follow`: the node becomes the next one) and `316-324` -/
def tryAll (m : Nat → Cur → Bool × Cur) (follow : Bool) : List Nat → Cur → Bool × Cur
  | [], s => (false, s)
  | y :: r, s =>
    match m y (if follow then { s with next := some y } else s) with
    | (true, s') => (true, s')
    | (false, s') => tryAll m follow r s'

/-- the child before `x`: `styling.rs:288-300` -/
def before (x : Nat) : List Nat → Option Nat
  | a :: b :: r => if a = x then none else if b = x then some a else before x (b :: r)
  | _ => none

/-- the children before `x`: `styling.rs:316-319` -/
def upTo (x : Nat) (l : List Nat) : List Nat := l.takeWhile fun c => decide (c ≠ x)

/-- `styling.rs:331-347` -/
def nsB (v : View) (x : Nat) : Part → Bool
  | .simple .universal => true
  | .simple (.type n) => decide (v.ns x = some n)
  | _ => false

/-- `styling.rs:249-355`; `rec` is the recursive call -/
def matchComb (v : View) (rec : Part → Nat → Cur → Bool × Cur) (c : Comb) (x : Nat) (s : Cur) : Bool × Cur :=
  match c, v.parent x, s.parts with
  | .descendant, some p, last :: rest => tryAll (rec last) true (p :: v.anc p) { s with parts := rest }
  | .child, some p, last :: rest => rec last p ⟨some p, rest⟩
  | .next, some p, last :: rest => match before x (v.children p) with
    | some q => rec last q ⟨some q, rest⟩
    | none => (false, s)
  | .subsequent, some p, last :: rest => tryAll (rec last) false (upTo x (v.children p)) { s with parts := rest }
  | .namespace, _, last :: rest => (nsB v x last, { s with parts := rest })
  | _, _, _ => (false, s)

/-- `styling.rs:92-358`.  The first number bounds the remaining parts; a combinator without a part to its
left does not match. -/
def matchPart (v : View) (ps : Option Str) : Nat → Part → Nat → Cur → Bool × Cur
  | _, .simple k, x, s => (simpleB v ps x k, s)
  | 0, .comb _, _, s => (false, s)
  | f + 1, .comb c, x, s => matchComb v (matchPart v ps f) c x s

/-- `styling.rs:67-90`, the loop; the number bounds the remaining parts -/
def matchLoop (v : View) (ps : Option Str) : Nat → Cur → Bool
  | 0, _ => true
  | f + 1, s =>
    match s.parts, s.next with
    | [], _ => true
    | _, none => false
    | part :: rest, some x =>
      if (v.parent x).isNone then false else
      match matchPart v ps f part x { s with parts := rest } with
      | (true, s') => matchLoop v ps f s'
      | (false, _) => false

/-- `styling.rs:67-90` -/
def matchParts (v : View) (ps : Option Str) (x : Nat) (parts : List Part) : Bool :=
  matchLoop v ps parts.length ⟨some x, parts.reverse⟩

/-- `stylesheet.rs:345-351` -/
structure Spec3 where
  a : Nat
  b : Nat
  c : Nat
  deriving DecidableEq, Repr

/-- `stylesheet.rs:353-374`: one part -/
def Spec3.add (s : Spec3) : Part → Spec3
  | .simple (.id _) => { s with a := s.a + 1 }
  | .simple (.cls _) => { s with b := s.b + 1 }
  | .simple (.type _) => { s with c := s.c + 1 }
  | _ => s

/-- `stylesheet.rs:353-374` -/
def specificity (parts : List Part) : Spec3 := parts.foldl Spec3.add ⟨0, 0, 0⟩

/-- `stylesheet.rs:382-`: the order of specificities -/
def Spec3.le (s t : Spec3) : Bool :=
  decide (s.a < t.a) || (decide (s.a = t.a) && (decide (s.b < t.b) || (decide (s.b = t.b) && decide (s.c ≤ t.c))))

/-- `styling.rs:33-41` -/
def targets (ps : Option Str) (parts : List Part) : Bool :=
  match ps with
  | none => true
  | some t => parts.any fun p => match p with
    | .simple (.pseudoElem n) => eqIgnoreCase n t
    | _ => false

/-- `styling.rs:26-49` -/
def matchSelector (v : View) (x : Nat) (ps : Option Str) : List (List Part) → Bool × Spec3
  | [] => (false, ⟨0, 0, 0⟩)
  | l :: r =>
    if targets ps l && matchParts v ps x l then (true, specificity l) else matchSelector v x ps r

/-! ## Hover fingerprints -/

/-- `gosub_interface/src/css3.rs:27-` -/
structure Prints where
  types : List Str
  classes : List Str
  ids : List Str
  universal : Bool
  deriving DecidableEq, Repr

/-- the `:hover` part, `system.rs:312` -/
def hoverPart : Simple := .pseudo "hover".toList

/-- `system.rs:317-331`: one part of a compound with `:hover` -/
def Prints.add (fp : Prints) : Simple → Prints
  | .type n => { fp with types := n :: fp.types }
  | .cls n => { fp with classes := n :: fp.classes }
  | .id n => { fp with ids := n :: fp.ids }
  | _ => fp

/-- `system.rs:316-332`: `specific` -/
def isSpecific : Simple → Bool
  | .type _ => true
  | .cls _ => true
  | .id _ => true
  | _ => false

/-- `system.rs:305-340`: the parts of one selector; `seen` is the compound so far.  The second result tells
that the function returns at once (`has_universal`). -/
def printParts : List Part → List Simple → Prints → Prints × Bool
  | [], _, fp => (fp, false)
  | .comb _ :: r, _, fp => printParts r [] fp
  | .simple s :: r, seen, fp =>
    let seen' := seen ++ [s]
    if s ≠ hoverPart then printParts r seen' fp
    else
      let fp' := seen'.foldl Prints.add fp
      if seen'.any isSpecific then printParts r seen' fp' else ({ fp' with universal := true }, true)

/-- `system.rs:293-346`: all part lists of all selectors of all rules of all sheets, in order -/
def printsFrom : List (List Part) → Prints → Prints
  | [], fp => fp
  | l :: r, fp => match printParts l [] fp with
    | (fp', true) => fp'
    | (fp', false) => printsFrom r fp'

/-- `system.rs:293-346` -/
def hoverPrints (lists : List (List Part)) : Prints := printsFrom lists ⟨[], [], [], false⟩

/-- `context.rs:53-76` -/
def hoverMatches (fp : Prints) (v : View) (x : Nat) : Bool :=
  fp.universal || withTag v x (fun t => decide (t ∈ fp.types)) || fp.classes.any (v.hasClass x) ||
  (match v.attr x "id".toList with
    | some i => decide (i ∈ fp.ids)
    | none => false)

/-- `context.rs:173`, `184` and the hovered nodes of the document -/
structure Pointer where
  leaf : Option Nat
  sensitive : Bool
  hovered : List Nat
  deriving DecidableEq, Repr

/-- `context.rs:270-290` -/
def Pointer.init : Pointer := ⟨none, false, []⟩

/-- the walk up from the new leaf, `context.rs:951-978` -/
def chainSensitive (fp : Prints) (v : View) : Option Nat → Bool
  | none => false
  | some x => (x :: v.anc x).any (hoverMatches fp v)

/-- `set_hovered_nodes`, `document_impl.rs` (see `Dom.climb`) -/
def chainOf (v : View) : Option Nat → List Nat
  | none => []
  | some x => x :: v.anc x

/-- `update_hover`, `context.rs:892-1000`, once the new leaf is known; without the link, the cursor and the
list of nodes to restyle.  The second result is `visual_dirty`. -/
def Pointer.move (fp : Prints) (v : View) (s : Pointer) (new : Option Nat) : Pointer × Bool :=
  if new = s.leaf then (s, false)
  else
    let sens := chainSensitive fp v new
    let dirty := s.sensitive || sens
    (⟨new, sens, if dirty then chainOf v new else s.hovered⟩, dirty)

/-- several moves of the pointer -/
def Pointer.moves (fp : Prints) (v : View) (s : Pointer) (l : List (Option Nat)) : Pointer :=
  l.foldl (fun s n => (s.move fp v n).1) s

end Verif.Select
