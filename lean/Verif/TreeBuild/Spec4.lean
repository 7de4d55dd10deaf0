import Verif.TreeBuild.Writer
import Verif.TreeBuild.Spec3

/-!
# Specification vocabulary for C108: documents written by the engine
-/
namespace Verif.TreeBuild
open Verif Verif.Dom

/-- writing the document from this node on comes to an end with this text -/
def Writes (order : List (Str × Str) → List (Str × Str)) (d : Doc) (i : Nat) (out : Str) : Prop :=
  ∃ k, Writer.writeNode order d k i = some out

/-- text that escaping leaves as it is: no `&`, `<`, `>`, `"` and no no-break space -/
def Simple (v : Str) : Prop := ∀ c ∈ v, c ∉ ['&', '<', '>', '"', Char.ofNat 0xA0]

mutual
/-- no element without end tag, and nothing to be escaped -/
def Tree.Bland : Tree → Prop
  | .elem n as kids => n ∉ voids ∧ (∀ a ∈ as, Simple a.2) ∧ (n ∈ texts ∧ n ≠ "title".toList ∨ AllBland kids)
  | .text v => Simple v
  | .comment _ => True
def AllBland : List Tree → Prop
  | [] => True
  | t :: r => t.Bland ∧ AllBland r
end

mutual
/-- the same tree with its attributes in another order -/
def Tree.reorder (f : List (Str × Str) → List (Str × Str)) : Tree → Tree
  | .elem n as kids => .elem n (f as) (reorderAll f kids)
  | .text v => .text v
  | .comment v => .comment v
def reorderAll (f : List (Str × Str) → List (Str × Str)) : List Tree → List Tree
  | [] => []
  | t :: r => t.reorder f :: reorderAll f r
end

def Page.reorder (f : List (Str × Str) → List (Str × Str)) (P : Page) : Page where
  doctype := P.doctype
  attrs := f P.attrs
  headAttrs := f P.headAttrs
  head := reorderAll f P.head
  bodyAttrs := f P.bodyAttrs
  body := reorderAll f P.body

/-- the page has no element without end tag, and nothing to be escaped -/
def Page.Bland (P : Page) : Prop := P.root.Bland

end Verif.TreeBuild
