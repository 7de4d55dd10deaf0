import Verif.CssParse.Model

/-!
# Stylesheets as they are written

A stylesheet is described here by what its author means and by how it is written: `toks` gives the tokens of the text, `rule` the
rule it stands for. The parser is not used.
-/

namespace Verif.CssParse

open Verif.CssTok (Token)
open Verif.Select (Part Simple Comb Matcher AttrSel)

/-- white space, where it may be left out -/
def ws (b : Bool) : List Token := if b then [.whitespace] else []

/-! ## Selectors -/

inductive AttrOp
  | equals | includes | dash | pre | suf | sub

def AttrOp.toks : AttrOp → List Token
  | .equals => [.delim '=']
  | .includes => [.delim '~', .delim '=']
  | .dash => [.delim '|', .delim '=']
  | .pre => [.delim '^', .delim '=']
  | .suf => [.delim '$', .delim '=']
  | .sub => [.delim '*', .delim '=']

def AttrOp.matcher : AttrOp → Matcher
  | .equals => .equals
  | .includes => .includes
  | .dash => .dash
  | .pre => .pre
  | .suf => .suf
  | .sub => .sub

/-- `a`, `*`, `.a`, `#a`, `:a`, `::a`, `[a]`, `[a=b]`, `[a="b" i]` -/
inductive WSimple
  | type (v : Str)
  | universal
  | cls (v : Str)
  | id (v : Str)
  | pseudo (v : Str)
  | pseudoElem (v : Str)
  | attr (name : Str)
  | attrIs (name : Str) (op : AttrOp) (value : Str) (quoted ci : Bool)

def WSimple.toks : WSimple → List Token
  | .type v => [.ident v]
  | .universal => [.delim '*']
  | .cls v => [.delim '.', .ident v]
  | .id v => [.hash v]
  | .pseudo v => [.colon, .ident v]
  | .pseudoElem v => [.colon, .colon, .ident v]
  | .attr n => [.lBracket, .ident n, .rBracket]
  | .attrIs n op v quoted ci =>
    [.lBracket, .ident n] ++ op.toks ++ [if quoted then .quotedString v else .ident v] ++
      (if ci then [.whitespace, .ident ['i']] else []) ++ [.rBracket]

def WSimple.simple : WSimple → Simple
  | .type v => .type v
  | .universal => .universal
  | .cls v => .cls v
  | .id v => .id v
  | .pseudo v => .pseudo v
  | .pseudoElem v => .pseudoElem v
  | .attr n => .attr ⟨n, .none, [], false⟩
  | .attrIs n op v _ ci => .attr ⟨n, op.matcher, v, ci⟩

def WSimple.isAttr : WSimple → Bool
  | .attr _ => true
  | .attrIs _ _ _ _ _ => true
  | _ => false

/-- what joins two compound selectors; before and after a sign there may be white space -/
inductive WComb
  | descendant
  | child (before after : Bool)
  | next (before after : Bool)
  | subsequent (before after : Bool)

def WComb.toks : WComb → List Token
  | .descendant => [.whitespace]
  | .child b a => ws b ++ [.delim '>'] ++ ws a
  | .next b a => ws b ++ [.delim '+'] ++ ws a
  | .subsequent b a => ws b ++ [.delim '~'] ++ ws a

def WComb.comb : WComb → Comb
  | .descendant => .descendant
  | .child _ _ => .child
  | .next _ _ => .next
  | .subsequent _ _ => .subsequent

/-- a compound selector -/
abbrev WCompound := List WSimple

def WCompound.toks (c : WCompound) : List Token := c.flatMap WSimple.toks
def WCompound.parts (c : WCompound) : List Part := c.map fun s => .simple s.simple

/-- a complex selector: `a > b.c d` -/
structure WSelector where
  first : WCompound
  rest : List (WComb × WCompound)

def WSelector.toks (s : WSelector) : List Token :=
  WCompound.toks s.first ++ s.rest.flatMap fun x => x.1.toks ++ WCompound.toks x.2

def WSelector.parts (s : WSelector) : List Part :=
  WCompound.parts s.first ++ s.rest.flatMap fun x => .comb x.1.comb :: WCompound.parts x.2

/-- After an attribute selector the descendant combinator is left out of what is claimed. -/
def joined : WCompound → List (WComb × WCompound) → Prop
  | _, [] => True
  | c, (j, n) :: r => n ≠ [] ∧ (j = .descendant → ¬ (c.getLast?.any WSimple.isAttr)) ∧ joined n r

def WSelector.Ok (s : WSelector) : Prop := s.first ≠ [] ∧ joined s.first s.rest

/-- the selectors of a rule, with a comma and perhaps white space before each but the first -/
structure WSelectors where
  first : WSelector
  more : List (Bool × WSelector)

def WSelectors.toks (l : WSelectors) : List Token :=
  l.first.toks ++ l.more.flatMap fun x => [.comma] ++ ws x.1 ++ x.2.toks

def WSelectors.groups (l : WSelectors) : List (List Part) := l.first.parts :: l.more.map fun x => x.2.parts

def WSelectors.Ok (l : WSelectors) : Prop := l.first.Ok ∧ ∀ x ∈ l.more, x.2.Ok

/-! ## Values -/

mutual
inductive WValue
  | ident (v : Str)
  | number (v : Str)
  | percentage (v : Str)
  | dimension (v u : Str)
  | hash (v : Str)
  | str (v : Str)
  | url (u : Str)
  | comma
  | op (c : Char)
  | func (name : Str) (args : WValues)
/-- values, each with perhaps white space after it -/
inductive WValues
  | nil
  | cons (v : WValue) (space : Bool) (rest : WValues)
end

mutual
def WValue.toks : WValue → List Token
  | .ident v => [.ident v]
  | .number v => [.number v]
  | .percentage v => [.percentage v]
  | .dimension v u => [.dimension v u]
  | .hash v => [.hash v]
  | .str v => [.quotedString v]
  | .url u => [.url u]
  | .comma => [.comma]
  | .op c => [.delim c]
  | .func n args => [.function n] ++ args.toks ++ [.rParen]
def WValues.toks : WValues → List Token
  | .nil => []
  | .cons v b r => v.toks ++ ws b ++ r.toks
end

mutual
/-- the value meant; `zero` tells which numbers are zero -/
def WValue.value (zero : Str → Bool) : WValue → CssValue
  | .ident v => .str v
  | .number v => if zero v then .zero else .number v
  | .percentage v => .percentage v
  | .dimension v u => .unit v u
  | .hash v => .color ('#' :: v)
  | .str v => .str v
  | .url u => .function "url".toList [.str u]
  | .comma => .comma
  | .op c => .str [c]
  | .func n args => .function n (args.values zero)
def WValues.values (zero : Str → Bool) : WValues → List CssValue
  | .nil => []
  | .cons v _ r => v.value zero :: r.values zero
end

mutual
/-- how deep functions are nested -/
def WValue.nest : WValue → Nat
  | .func _ args => args.nest + 1
  | _ => 0
def WValues.nest : WValues → Nat
  | .nil => 0
  | .cons v _ r => max v.nest r.nest
end

mutual
/-- Left out of what is claimed: `progid:…`, `u+…`, `calc(…)` and `url(…)` with a quoted string. -/
def WValue.Ok : WValue → Prop
  | .ident v => eqCi v "progid".toList = false ∧ eqCi v "u+".toList = false
  | .op c => c ∈ ['+', '-', '*', '/']
  | .func n args => n.map lowerChar ≠ "calc".toList ∧ n.map lowerChar ≠ "url".toList ∧ args.Ok
  | _ => True
def WValues.Ok : WValues → Prop
  | .nil => True
  | .cons v _ r => v.Ok ∧ r.Ok
end

/-! ## Declarations, rules and stylesheets -/

/-- `color : red !important`, with or without the spaces -/
structure WDecl where
  property : Str
  beforeColon : Bool
  afterColon : Bool
  values : WValues
  important : Bool
  after : Bool

def WDecl.toks (d : WDecl) : List Token :=
  [.ident d.property] ++ ws d.beforeColon ++ [.colon] ++ ws d.afterColon ++ d.values.toks ++
    (if d.important then [.delim '!', .ident "important".toList] ++ ws d.after else [])

def WDecl.decl (zero : Str → Bool) (d : WDecl) : Decl :=
  ⟨d.property, match d.values.values zero with | [v] => v | l => .list l, d.important⟩

/-- Custom properties are left out of what is claimed. -/
def WDecl.Ok (d : WDecl) : Prop :=
  "--".toList.isPrefixOf d.property = false ∧ d.values ≠ .nil ∧ d.values.Ok

/-- a rule: each declaration of `init` has a semicolon after it, and then perhaps white space; the last one has none -/
structure WRule where
  selectors : WSelectors
  beforeBlock : Bool
  inBlock : Bool
  init : List (WDecl × Bool)
  last : Option WDecl
  after : Bool

def WRule.toks (r : WRule) : List Token :=
  r.selectors.toks ++ ws r.beforeBlock ++ [.lCurly] ++ ws r.inBlock ++
    (r.init.flatMap fun x => x.1.toks ++ [.semicolon] ++ ws x.2) ++ r.last.toList.flatMap WDecl.toks ++ [.rCurly] ++ ws r.after

def WRule.decls (r : WRule) : List WDecl := r.init.map Prod.fst ++ r.last.toList

def WRule.rule (zero : Str → Bool) (r : WRule) : Rule := ⟨r.selectors.groups, r.decls.map (WDecl.decl zero)⟩

def WRule.Ok (r : WRule) : Prop := r.selectors.Ok ∧ ∀ d ∈ r.decls, d.Ok

/-- functions are nested at most this deep -/
def WRule.nestLe (n : Nat) (r : WRule) : Prop := ∀ d ∈ r.decls, d.values.nest ≤ n

def sheetToks (l : List WRule) : List Token := l.flatMap WRule.toks

end Verif.CssParse
