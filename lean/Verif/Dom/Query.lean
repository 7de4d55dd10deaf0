import Verif.Dom.Model

/-!
# Model of queries

Files modelled (in /repo/crates/gosub_html5/src): `parser/query.rs`, `document/query.rs`.
-/
namespace Verif.Dom
open Verif Verif.Map

/-- `parser/query.rs:1-9` -/
inductive Cond
  | tag (t : Str)
  | id (v : Str)
  | cls (c : Str)
  | hasAttr (k : Str)
  | childTag (t : Str)
  | parentTag (t : Str)
  deriving DecidableEq

/-- `parser/query.rs:11-16` -/
inductive SearchType
  | uninitialized
  | findFirst
  | findAll
  deriving DecidableEq

/-- `document_impl.rs:169-174` -/
def tagName (d : Doc) (i : Nat) : Option Str := ((nodeAt d i).bind elemOf).map (·.name)

/-- `document/query.rs:46-53` -/
def containsChildTag (d : Doc) (i : Nat) (t : Str) : Bool :=
  (children d i).any fun c => isElement d c && decide (tagName d c = some t)

/-- `document/query.rs:55-80` -/
def matchesCond (d : Doc) (i : Nat) (c : Cond) : Bool :=
  if !isElement d i then false
  else match c with
    | .tag t => decide (tagName d i = some t)
    | .id v => decide (attr d i idKey = some v)
    | .cls w => match attr d i classKey with
      | some v => (words v).any fun c => decide (c = w)
      | none => false
    | .hasAttr k => (attr d i k).isSome
    | .childTag t => containsChildTag d i t
    | .parentTag t => match parent d i with
      | some p => decide (tagName d p = some t)
      | none => false

/-- the loop of `document/query.rs:22-43`, with the stack of the iterator and what was found so far;
`none`: the loop has not ended after that many rounds -/
def search (d : Doc) (conds : List Cond) (first : Bool) : Nat → List Nat → List Nat → Option (List Nat)
  | 0, _, _ => none
  | f + 1, st, found => match iterNext d st with
    | none => some found
    | some (x, st') =>
      if conds.all (matchesCond d x) then
        if first then some (found ++ [x]) else search d conds first f st' (found ++ [x])
      else search d conds first f st' found

/-- `document/query.rs:15-44` in at most `f` rounds: `some none` is the error -/
def query (d : Doc) (t : SearchType) (conds : List Cond) (f : Nat) : Option (Option (List Nat)) :=
  match t with
  | .uninitialized => some none
  | .findFirst => (search d conds true f [0] []).map some
  | .findAll => (search d conds false f [0] []).map some

end Verif.Dom
