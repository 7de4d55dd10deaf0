import Verif.Cascade.Model
import Verif.Select.Spec

/-!
# Specification for C44, C47, C48 and C64
-/
namespace Verif.Cascade
open Verif Verif.Map Verif.Select

/-! ## The cascade (C44) -/

/-- CSS Cascading and Inheritance 4, 6.1: origins and importance, weakest first -/
def cascadeOrder : List (Origin × Bool) :=
  [(.userAgent, false), (.user, false), (.author, false), (.author, true), (.user, true), (.userAgent, true)]

/-- the place of a declaration in that order -/
def Decl.level (d : Decl) : Nat := cascadeOrder.idxOf (d.origin, d.important)

/-- `d` is weaker than `e`: by origin and importance, else by specificity -/
def Weaker (d e : Decl) : Prop := d.level < e.level ∨ d.level = e.level ∧ d.spec.Less e.spec

/-- neither is weaker -/
def Tied (d e : Decl) : Prop := ¬ Weaker d e ∧ ¬ Weaker e d

/-- `d` is the declaration of the list that no other beats: none is stronger, and none that comes later is
equally strong -/
def Wins (l : List Decl) (d : Decl) : Prop :=
  ∃ a b, l = a ++ d :: b ∧ (∀ e ∈ a, ¬ Weaker d e) ∧ ∀ e ∈ b, Weaker e d

/-- the definition accepts the values -/
def Definition.valid (df : Definition) (v : Val) : Prop := (df.run v.slice .new).1 = true

/-- the longhands a shorthand declaration sets, and to what -/
def Definition.sets (df : Definition) (v : Val) : List (Str × Val) :=
  (df.run v.slice .new).2.list.map fun e => (e.1, e.2.value)

/-- What one declaration assigns to the property `p`; the flag tells that this is by expanding a shorthand.  A
declaration that is not valid assigns nothing, except for the parts recovered from a `background`. -/
noncomputable def assigned (e : Env) (p : Str) (a : Applied) : List (Bool × Decl) :=
  let v := e.prep a.decl.value
  open Classical in
  if isCustom a.decl.property then []
  else if a.decl.property = "content".toList then
    if a.decl.property = p then [(false, a.decl' v)] else []
  else match e.defs a.decl.property with
    | Option.none => if a.decl.property = p then [(false, a.decl' v.unwrap)] else []
    | some df =>
      if df.valid v then
        (if a.decl.property = p then [(false, a.decl' v.unwrap)] else []) ++
          ((df.sets v).filter fun s => s.1 = p).map fun s => (true, a.decl' s.2)
      else ((recovered e a v).filter fun s => s.1 = p).map fun s => (false, a.decl' s.2)

/-- everything assigned to `p`, in the order of the sheets -/
noncomputable def assignments (e : Env) (p : Str) (l : List Applied) : List (Bool × Decl) := l.flatMap (assigned e p)

/-- What is asked of the definitions: a one- to four-value shorthand carries its own name, and shorthands set no
shorthands.  (`border` does: it sets `border-width`.) -/
structure FlatDefs (defs : Defs) : Prop where
  named : ∀ p q, defs p = some (.quad q) → q.name = p
  flat : ∀ p df v n w, defs p = some df → (n, w) ∈ df.sets v → ∀ dn, defs n = some dn → dn.isShorthand = false

/-- Declarations that are not valid set nothing, for these declarations. -/
def RejectsClean (e : Env) (l : List Applied) : Prop :=
  ∀ a ∈ l, ∀ df, e.defs a.decl.property = some df → ¬ df.valid (e.prep a.decl.value) →
    df.sets (e.prep a.decl.value) = []

/-- no shorthand sets the property with the strength of a longhand declaration that comes later -/
def NoLateTie (l : List (Bool × Decl)) : Prop :=
  ∀ a d m e b, l = a ++ (true, d) :: m ++ (false, e) :: b → ¬ Tied d e

/-! ## Box shorthands (C48) -/

/-- the sides of a box -/
inductive Side
  | top | right | bottom | left
  deriving DecidableEq, Repr

/-- CSS Box Model 4, 3.2: the value of a side given one to four values -/
def sideValue : List Val → Side → Option Val
  | [a], _ => some a
  | [a, _], .top => some a
  | [_, b], .right => some b
  | [a, _], .bottom => some a
  | [_, b], .left => some b
  | [a, _, _], .top => some a
  | [_, b, _], .right => some b
  | [_, _, c], .bottom => some c
  | [_, b, _], .left => some b
  | [a, _, _, _], .top => some a
  | [_, b, _, _], .right => some b
  | [_, _, c, _], .bottom => some c
  | [_, _, _, d], .left => some d
  | _, _ => Option.none

/-- the declaration already kept for a longhand stays if it is stronger than the new one -/
def overlay (old : Option Decl) (new : Decl) : Decl → Prop := fun d =>
  match old with
  | some o => (Weaker new o ∧ d = o) ∨ (¬ Weaker new o ∧ d = new)
  | Option.none => d = new

/-- exactly one alternative of the grammar matches the value -/
def Quad.OneWay (q : Quad) (v : Val) : Prop := (q.alts.filter fun a => a v).length = 1

/-! ## Custom properties (C47) -/

/-- the declarations of a custom property that apply to the element itself, in the order of the sheets -/
def customDecls (v : View) (sheets : List Sheet) (x : Nat) (name : Str) : List Decl :=
  ((applied v x Option.none sheets).filter fun a => a.decl.property = name).map fun a => a.decl' a.decl.value

/-- the value of a custom property: that of the winning declaration on the nearest element, starting with the
element itself and going up, that has one -/
def CustomValue (v : View) (sheets : List Sheet) (x : Nat) (name : Str) (w : Val) : Prop :=
  ∃ a y b, x :: v.anc x = a ++ y :: b ∧ (∀ z ∈ a, customDecls v sheets z name = []) ∧
    ∃ d, Wins (customDecls v sheets y name) d ∧ d.value = w

/-- all declarations of the list are equally strong -/
def AllTied (l : List Decl) : Prop := ∀ d ∈ l, ∀ e ∈ l, Tied d e

end Verif.Cascade
