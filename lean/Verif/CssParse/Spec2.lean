import Verif.CssParse.Spec

/-!
# Stylesheets with mistakes in them

As in `Spec`, and with declarations and rules in between that have no meaning.
-/

namespace Verif.CssParse

open Verif.CssTok (Token)

/-- a token that neither opens nor closes anything and does not end a declaration -/
def Plain : Token → Prop
  | .lParen | .rParen | .lBracket | .rBracket | .lCurly | .rCurly | .function _ | .semicolon | .eof => False
  | _ => True

/-- what is open by this token is closed by that one -/
def Pair : Token → Token → Prop
  | .lParen, .rParen => True
  | .function _, .rParen => True
  | .lBracket, .rBracket => True
  | .lCurly, .rCurly => True
  | _, _ => False

/-- tokens in which everything that is opened is closed -/
inductive Balanced : List Token → Prop
  | nil : Balanced []
  | plain {t l} : Plain t → Balanced l → Balanced (t :: l)
  | semicolon {l} : Balanced l → Balanced (.semicolon :: l)
  | group {o c a l} : Pair o c → Balanced a → Balanced l → Balanced (o :: (a ++ c :: l))

/-- `color red` (no colon) and `color:` (no value) -/
inductive WWrongDecl
  | noColon (property : Str) (space : Bool) (t : Token) (more : List Token)
  | noValue (property : Str) (beforeColon afterColon : Bool)

def WWrongDecl.toks : WWrongDecl → List Token
  | .noColon p b t more => [.ident p] ++ ws b ++ [t] ++ more
  | .noValue p b c => [.ident p] ++ ws b ++ [.colon] ++ ws c

def WWrongDecl.Ok : WWrongDecl → Prop
  | .noColon _ _ t more => Plain t ∧ t ≠ .colon ∧ t ≠ .whitespace ∧ ∀ u ∈ more, Plain u
  | .noValue p _ _ => "--".toList.isPrefixOf p = false

/-- what is between the semicolons of a block -/
inductive WEntry
  | decl (d : WDecl)
  | wrong (d : WWrongDecl)

def WEntry.toks : WEntry → List Token
  | .decl d => d.toks
  | .wrong d => d.toks

def WEntry.decl? : WEntry → Option WDecl
  | .decl d => some d
  | .wrong _ => none

/-- a rule with such a block -/
structure WRule2 where
  selectors : WSelectors
  beforeBlock : Bool
  inBlock : Bool
  init : List (WEntry × Bool)
  last : Option WEntry
  after : Bool

def WRule2.toks (r : WRule2) : List Token :=
  r.selectors.toks ++ ws r.beforeBlock ++ [.lCurly] ++ ws r.inBlock ++
    (r.init.flatMap fun x => x.1.toks ++ [.semicolon] ++ ws x.2) ++ r.last.toList.flatMap WEntry.toks ++ [.rCurly] ++ ws r.after

def WRule2.entries (r : WRule2) : List WEntry := r.init.map Prod.fst ++ r.last.toList

def WRule2.rule (zero : Str → Bool) (r : WRule2) : Rule :=
  ⟨r.selectors.groups, (r.entries.filterMap WEntry.decl?).map (WDecl.decl zero)⟩

def WEntry.Ok : WEntry → Prop
  | .decl d => d.Ok
  | .wrong d => d.Ok

def WEntry.nestLe (n : Nat) : WEntry → Prop
  | .decl d => d.values.nest ≤ n
  | .wrong _ => True

/-- `a ! b { … }`: what can be read of the selectors ends at a sign that is in no selector -/
structure WWrongRule where
  selectors : Option (WSelectors × Bool)
  sign : Char
  more : List Token
  body : List Token
  after : Bool

def WWrongRule.before (r : WWrongRule) : List Token :=
  match r.selectors with
  | some (s, b) => s.toks ++ ws b
  | none => []

def WWrongRule.toks (r : WWrongRule) : List Token :=
  r.before ++ [.delim r.sign] ++ r.more ++ [.lCurly] ++ r.body ++ [.rCurly] ++ ws r.after

def WWrongRule.Ok (r : WWrongRule) : Prop :=
  (∀ x, r.selectors = some x → x.1.Ok) ∧ r.sign ∉ ['+', '>', '~', '/', '.', '|', '*', '#', '&'] ∧
    (∀ t ∈ r.more, Plain t) ∧ Balanced r.body

inductive WItem
  | rule (r : WRule2)
  | wrong (r : WWrongRule)

def WItem.toks : WItem → List Token
  | .rule r => r.toks
  | .wrong r => r.toks

def WItem.rule? : WItem → Option WRule2
  | .rule r => some r
  | .wrong _ => none

def WItem.Ok : WItem → Prop
  | .rule r => r.selectors.Ok ∧ ∀ e ∈ r.entries, e.Ok
  | .wrong r => r.Ok

def WItem.nestLe (n : Nat) : WItem → Prop
  | .rule r => ∀ e ∈ r.entries, e.nestLe n
  | .wrong _ => True

def itemsToks (l : List WItem) : List Token := l.flatMap WItem.toks

end Verif.CssParse
