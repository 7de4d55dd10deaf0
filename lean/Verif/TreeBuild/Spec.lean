import Verif.TreeBuild.Model
import Verif.Dom.Spec
import Mathlib.Logic.Relation

/-!
# Specification vocabulary for C103–C105
-/
namespace Verif.TreeBuild
open Verif Verif.Dom Relation

/-- A proper tree: no node is its own descendant, every node lists each child once and lists exactly the nodes that name it as their
parent, and what is listed or named exists. -/
structure ProperTree (d : Doc) : Prop where
  acyclic : ∀ x, ¬ TransGen (Edge d) x x
  agree : LinksAgree d
  listed : ∀ p c, c ∈ children d p → live d p ∧ live d c ∧ parent d c = some p
  named : ∀ c p, parent d c = some p → live d p

/-- the parser at the start of a document with these tokens to come (the end of the file comes after them) -/
def atStart (toks : List Token) : Loop := ⟨St.document, none, toks⟩

/-- parsing, from here, comes to its end with this document -/
def Ends (env : Env) (l : Loop) (d : Doc) : Prop := ∃ k l', Loop.run env l k = some l' ∧ l'.st.finished = true ∧ l'.st.doc = d

/-- everything has been read -/
def Spent (l : Loop) : Prop := l.input = [] ∧ l.st.queue = [] ∧ l.again = none

/-- every node of the first document is in the second, elements with their name and namespace -/
def Keeps (d d' : Doc) : Prop :=
  (∀ i, live d i → live d' i) ∧
  ∀ i e, dataAt d i = some (.element e) → ∃ e', dataAt d' i = some (.element e') ∧ e'.name = e.name ∧ e'.ns = e.ns

/-- A document into which a fragment may be parsed: it was built with calls that attach unattached nodes only, and no node names a
removed node as its parent or contents. -/
structure Sound (d : Doc) : Prop where
  reach : Reach Tidy d
  root : live d 0
  up : ∀ c p, parent d c = some p → live d p
  inner : ∀ i e c, dataAt d i = some (.element e) → e.template = some c → live d c

/-- the kinds of characters text is split by: NUL, white space, the rest -/
inductive Kind | null | white | rest
  deriving DecidableEq

def kind (c : Char) : Kind :=
  if c = Char.ofNat 0 then .null
  else if c = '\t' ∨ c = '\n' ∨ c = '\x0C' ∨ c = '\r' ∨ c = ' ' then .white
  else .rest

/-- `ps` is the text cut wherever the class of its characters changes, and only there -/
structure Runs {α : Type} (kind : Char → α) (v : Str) (ps : List Str) : Prop where
  whole : ps.flatten = v
  some : ∀ p ∈ ps, p ≠ []
  same : ∀ p ∈ ps, ∀ a ∈ p, ∀ b ∈ p, kind a = kind b
  apart : ∀ p q, [p, q] <:+: ps → ∀ a ∈ p, ∀ b ∈ q, kind a ≠ kind b

end Verif.TreeBuild
