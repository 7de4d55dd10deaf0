import Verif.Dom.Model

/-!
# Model of the document writer (`gosub_html5/src/writer.rs`)

A document's attributes are a hash map, so they are written in an order the code does not fix: `order` lists them.
-/
namespace Verif.TreeBuild.Writer
open Verif Verif.Dom

/-- writer.rs 59-67 -/
def writeAttrs (order : List (Str × Str) → List (Str × Str)) (as : List (Str × Str)) : Str :=
  (order as).flatMap fun a => ' ' :: (a.1 ++ ('=' :: '"' :: (a.2 ++ ['"'])))

/-- one after the other; `none` if one of them does not come to an end -/
def concat : List (Option Str) → Option Str
  | [] => some []
  | a :: r => a.bind fun x => (concat r).map (x ++ ·)

/-- writer.rs 16-81 (`write_node`), to this depth of calls; `none` if there are more. A node that is not there counts as a document
without children (document_impl.rs 136-138 and 164-166). -/
def writeNode (order : List (Str × Str) → List (Str × Str)) (d : Doc) : Nat → Nat → Option Str
  | 0, _ => none
  | k + 1, i =>
    let inner := concat ((children d i).map (writeNode order d k))
    match (nodeAt d i).map Node.data with
    | none => inner
    | some .document => inner
    | some (.doctype name _ _) => inner.map fun x => "<!DOCTYPE ".toList ++ (name ++ ('>' :: x))
    | some (.text v) => inner.map (v ++ ·)
    | some (.comment v) => inner.map fun x => "<!--".toList ++ (v ++ ("-->".toList ++ x))
    | some (.element e) => inner.map fun x =>
        '<' :: (e.name ++ (writeAttrs order e.attrs ++ ('>' :: (x ++ ('<' :: '/' :: (e.name ++ ['>']))))))

end Verif.TreeBuild.Writer
