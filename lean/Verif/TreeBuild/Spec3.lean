import Verif.TreeBuild.Spec2
import Verif.HtmlTok.Spec

/-!
# Specification vocabulary for C107: a page as text, and a tokenizer and a tree builder working together

Tags, comments and text are written as in C91 (`HtmlTok.print`, the standard's 13.3).
-/
namespace Verif.TreeBuild
open Verif Verif.Dom

mutual
/-- a tree written out: the text of `style`, `script` and the like as it is, other text and attribute values escaped -/
def Tree.write : Tree → Str
  | .elem n as kids => HtmlTok.print (.startTag n false as) ++
      if n ∈ voids then []
      else (if n ∈ texts ∧ n ≠ "title".toList then plainText kids else writeAll kids) ++ HtmlTok.print (.endTag n)
  | .text v => HtmlTok.print (.text v)
  | .comment v => HtmlTok.print (.comment v)
def writeAll : List Tree → Str
  | [] => []
  | t :: r => t.write ++ writeAll r
/-- text as it is -/
def plainText : List Tree → Str
  | [] => []
  | .text v :: r => v ++ plainText r
  | _ :: r => plainText r
end

/-- text that can be in an element that has nothing but text: not NUL, not the element's end tag, and in a script no `<!--` -/
def RawOk (n v : Str) : Prop :=
  Char.ofNat 0 ∉ v ∧ (n ≠ "title".toList → HtmlTok.NoEndTag n v) ∧ (n = "script".toList → ¬ "<!--".toList <:+: v)

mutual
/-- what can be written out: names and attributes as in C91, comments that do not end early -/
def Tree.Writable : Tree → Prop
  | .elem n as kids => HtmlTok.Printable (.startTag n false as) ∧ (n ∈ texts → ∀ v, .text v ∈ kids → RawOk n v) ∧ AllWritable kids
  | .text _ => True
  | .comment v => HtmlTok.CommentText v
def AllWritable : List Tree → Prop
  | [] => True
  | t :: r => t.Writable ∧ AllWritable r
end

/-- the text of a page -/
def Page.write (P : Page) : Str :=
  (match P.doctype with
    | some (n, _, _, _) => HtmlTok.print (.doctype n false none none)
    | none => []) ++ P.root.write

def Page.Writable (P : Page) : Prop :=
  (∀ n q p y, P.doctype = some (n, q, p, y) → HtmlTok.Printable (.doctype n q p y)) ∧ P.root.Writable

/-- the tree builder has read these tokens and is in this state, whatever may come after them -/
def HasRead (env : Env) (got : List Token) (s : St) : Prop :=
  ∀ rest, ∃ k, Loop.run env (atStart (got ++ rest)) k = some ⟨s, none, rest⟩

/-- The parser that the tokenizer serves is this tree builder: after a token it tells the tokenizer what the tree builder, having
read the tokens so far and put nothing back, asks for. -/
def Serves (env : Env) (p : HtmlTok.Parser) : Prop :=
  ∀ got s, HasRead env got s → s.queue = [] → p.switch got = s.switch

end Verif.TreeBuild
