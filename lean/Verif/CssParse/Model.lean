import Verif.CssTok.Model
import Verif.Select.Model

/-!
# The CSS parser

Models `crates/gosub_css3/src/lib.rs`, `parser.rs`, `parser/*.rs`, `parser/at_rule/*.rs` and, from `ast.rs`, the conversion of the
tree into the rules of a stylesheet.

Simplifications: the parser reads the tokens of one list (that the token buffer is one is C98); `prev` are those already consumed,
last first, and `next` the others. There are no comment tokens (tokenizer.rs 348-358 drops comments). Locations, log lines and the
text of errors are left out. Numbers stay the text the tokenizer read. Font faces (ast.rs 221-324) are left out.

A call that goes deeper into the same cycle of functions goes through `Rec`: what the parser does with one stack level less.
`Res.deep` means that the stack levels have run out, `Res.hang` that a loop has made more rounds than any loop needs.
-/

namespace Verif.CssParse

open Verif.CssTok (Token)

/-- node.rs 6-11, `FeatureKind` -/
inductive Kind
  | media | container | supports
  deriving DecidableEq

/-- node.rs 13-165, `NodeType`; a node is its type, the location is left out -/
inductive Node
  | styleSheet (children : List Node)
  | rule (prelude block : Option Node)
  | atRule (name : Str) (prelude block : Option Node)
  | declaration (property : Str) (value : List Node) (important : Bool)
  | block (children : List Node)
  | cdo
  | cdc
  | idSelector (value : Str)
  | ident (value : Str)
  | number (value : Str)
  | percentage (value : Str)
  | dimension (value unit : Str)
  | attributeSelector (name : Str) (matcher : Option Node) (value flags : Str)
  | pseudoClassSelector (value : Node)
  | pseudoElementSelector (value : Str)
  | classSelector (value : Str)
  | nestingSelector
  | typeSelector (ns : Option Str) (value : Str)
  | combinator (value : Str)
  | selector (children : List Node)
  | selectorList (selectors : List Node)
  | nth (nth : Node) (selector : Option Node)
  | anPlusB (a b : Str)
  | function (name : Str) (arguments : List Node)
  | msFunction (func : Node)
  | msIdent (value default : Str)
  | calcFn (expr : Node)
  | raw (value : Str)
  | str (value : Str)
  | hash (value : Str)
  | url (url : Str)
  | operator (value : Str)
  | comma
  | value (children : List Node)
  | container (children : List Node)
  | condition (list : List Node)
  | feature (kind : Kind) (name : Str) (value : Option Node)
  | featureFunction
  | range (left leftComparison middle : Node) (rightComparison right : Option Node)
  | mediaQuery (modifier mediaType : Str) (condition : Option Node)
  | mediaQueryList (queries : List Node)
  | layerList (layers : List Node)
  | importList (children : List Node)
  | scope (root limit : Option Node)

/-- What the parser is given, and what it takes from elsewhere: the setting `ignore_errors`, Unicode lower-casing, the form in
which a number read as `f32` is printed, the printed form of a token (tokenizer.rs 188-223), `str::trim`, and the text between two
positions of the stream (tokenizer.rs 957-978). -/
structure Env where
  ignore : Bool
  lower : Str → Str
  num : Str → Str
  show_ : Token → Str
  trim : Str → Str
  slice : List Token → List Token → Str

/-- lib.rs 41-54, `Css3`: the tokens consumed and to come, `recursion_depth`, and the length of `allow_values_in_argument_list` -/
structure PS where
  prev : List Token
  next : List Token
  depth : Nat
  allow : Nat

/-- how a step of the parser ends -/
inductive Res (α : Type)
  | ok (a : α) (s : PS)
  | err (s : PS)
  | deep
  | hang

/-- a step of the parser -/
def P (α : Type) : Type := PS → Res α

/-- `?` -/
instance : Monad P where
  pure a := fun s => .ok a s
  bind m f := fun s =>
    match m s with
    | .ok a s' => f a s'
    | .err s' => .err s'
    | .deep => .deep
    | .hang => .hang

/-- `return Err(...)` -/
def fail {α : Type} : P α := fun s => .err s

/-- the result of a call whose error is looked at instead of passed on -/
def attempt {α : Type} (f : P α) : P (Option α) := fun s =>
  match f s with
  | .ok a s' => .ok (some a) s'
  | .err s' => .ok none s'
  | .deep => .deep
  | .hang => .hang

/-- rounds of a loop: `inl` goes on, `inr` leaves it -/
def rounds {σ β : Type} (body : σ → P (σ ⊕ β)) : Nat → σ → P β
  | 0, _ => fun _ => .hang
  | n + 1, x => do
    match ← body x with
    | .inl y => rounds body n y
    | .inr b => pure b

/-- `loop` and `while`. That the rounds allowed here never run out is C109. -/
def forever {σ β : Type} (body : σ → P (σ ⊕ β)) (x : σ) : P β := fun s => rounds body (14 * s.next.length + 40) x s

/-- tokenizer.rs 310-322, `consume` -/
def consume : P Token := fun s =>
  match s.next with
  | t :: r => .ok t { s with prev := t :: s.prev, next := r }
  | [] => .ok .eof { s with prev := .eof :: s.prev }

/-- tokenizer.rs 325-329, `reconsume` -/
def reconsume : P Unit := fun s =>
  match s.prev with
  | t :: p => .ok () { s with prev := p, next := t :: s.next }
  | [] => .ok () s

/-- the tokens to come when the buffer has been filled up to `k` -/
def pad (k : Nat) (next : List Token) : List Token := next ++ List.replicate (k + 1 - next.length) .eof

/-- tokenizer.rs 294-307, `lookahead` -/
def lookahead (k : Nat) : P Token := fun s => .ok ((pad k s.next)[k]?.getD .eof) { s with next := pad k s.next }

/-- tokenizer.rs 278-290, `lookahead_sc` -/
def lookaheadSc (k : Nat) : P Token := fun s =>
  match ((pad k s.next).drop k).dropWhile (· = .whitespace) with
  | t :: _ => .ok t { s with next := pad k s.next }
  | [] => .ok .eof { s with next := pad k s.next ++ [.eof] }

/-- tokenizer.rs 258-260, `eof` -/
def atEof : P Bool := fun s => .ok s.next.isEmpty s

/-- tokenizer.rs 265-275, `current`: the token consumed last -/
def current : P Token := fun s => .ok (s.prev.head?.getD .eof) s

/-- lib.rs 39: `MAX_RECURSION_DEPTH` -/
def maxDepth : Nat := 64

/-- lib.rs 74-87, `recurse` -/
def recurse {α : Type} (f : P α) : P α := fun s =>
  if s.depth ≥ maxDepth then .err s else
  match f { s with depth := s.depth + 1 } with
  | .ok a s' => .ok a { s' with depth := s'.depth - 1 }
  | .err s' => .err { s' with depth := s'.depth - 1 }
  | .deep => .deep
  | .hang => .hang

/-- block.rs 6-10, `BlockParseMode` -/
inductive Mode
  | style | regular
  deriving DecidableEq

/-- the functions that are called again from within themselves, with one stack level less: `parse_block_inner`,
`parse_function_arguments`, `parse_calc_expr`, `parse_pseudo_function_inner` and `parse_condition` -/
structure Rec where
  block : Mode → P Node
  args : P (List Node)
  expr : P Str
  pseudo : Str → P Node
  cond : Kind → P Node

/-- ASCII lower case -/
def lowerChar (c : Char) : Char := if 'A' ≤ c ∧ c ≤ 'Z' then Char.ofNat (c.toNat + 32) else c

/-- `str::eq_ignore_ascii_case` -/
def eqCi (a b : Str) : Bool := decide (a.map lowerChar = b.map lowerChar)

/-! ## parser.rs -/

/-- parser.rs 25-35, `consume` -/
def expect (t : Token) : P Unit := do
  if (← consume) = t then pure () else fail

/-- parser.rs 42-51 -/
def consumeFunction : P Str := do
  match ← consume with
  | .function n => pure n
  | _ => fail

/-- parser.rs 53-62 -/
def consumeAnyNumber : P Str := do
  match ← consume with
  | .number v => pure v
  | _ => fail

/-- parser.rs 64-73 -/
def consumeAnyDelim : P Char := do
  match ← consume with
  | .delim c => pure c
  | _ => fail

/-- parser.rs 75-84 -/
def consumeAnyString : P Str := do
  match ← consume with
  | .quotedString v => pure v
  | _ => fail

/-- parser.rs 97-110, on the tokens -/
def wsLoop : List Token → List Token → List Token × List Token
  | p, .whitespace :: r => wsLoop (.whitespace :: p) r
  | p, [] => (p, [.eof])
  | p, t :: r => (p, t :: r)

/-- parser.rs 97-110, `consume_whitespace_comments` -/
def skipWs : P Unit := fun s => .ok () { s with prev := (wsLoop s.prev s.next).1, next := (wsLoop s.prev s.next).2 }

/-- parser.rs 112-121 -/
def consumeIdentCi (w : Str) : P Unit := do
  match ← consume with
  | .ident v => if eqCi v w then pure () else fail
  | _ => fail

/-- parser.rs 123-132 -/
def consumeIdent (w : Str) : P Unit := do
  match ← consume with
  | .ident v => if v = w then pure () else fail
  | _ => fail

/-- parser.rs 134-154 -/
def consumeAnyIdent : P Str := do
  match ← consume with
  | .delim '.' =>
    match ← consume with
    | .ident v => pure ('.' :: v)
    | _ => fail
  | .ident v => pure v
  | _ => fail

/-- parser.rs 156-169, on the tokens -/
def rawLoop : List Token → List Token → List Token × List Token
  | p, [] => (p, [])
  | p, .lCurly :: r => (p, .lCurly :: r)
  | p, t :: r => rawLoop (t :: p) r

/-- parser.rs 156-169, `consume_raw_condition` -/
def consumeRawCondition (env : Env) : P Str := fun s =>
  .ok (env.slice s.prev (rawLoop s.prev s.next).1) { s with prev := (rawLoop s.prev s.next).1, next := (rawLoop s.prev s.next).2 }

/-! ## Values: calc.rs, url.rs, operator.rs, function.rs, value.rs -/

/-- calc.rs 17-65, `parse_calc_expr`. It gives the text of the `Raw` node. -/
def calcExpr (env : Env) (k : Rec) : P Str := do
  let e ← forever (fun e : Str => do
    match ← consume with
    | .eof => return .inr e
    | .function n =>
      let inner ← recurse k.expr
      return .inl (e ++ n ++ ['('] ++ inner ++ [')'])
    | .lParen =>
      let inner ← recurse k.expr
      return .inl (e ++ ['('] ++ inner ++ [')'])
    | .rParen => return .inr e
    | t => return .inl (e ++ env.show_ t)) []
  return env.trim e

/-- calc.rs 7-15, `parse_calc` -/
def calcValue (env : Env) (k : Rec) : P Node := do
  return .calcFn (.raw (← calcExpr env k))

/-- url.rs 8-35, `parse_url` -/
def url : P Node := do
  let n ← consumeFunction
  if !eqCi n "url".toList then fail else
  match ← consume with
  | .quotedString u =>
    expect .rParen
    return .url u
  | _ => fail

/-- operator.rs 8-27, `parse_operator` -/
def operator : P Node := do
  match ← consume with
  | .delim c => if c ∈ ['/', '*', ',', ':', '+', '-', '='] then return .operator [c] else fail
  | _ => fail

/-- `allow_values_in_argument_list.push(true)` -/
def allowPush : P Unit := fun s => .ok () { s with allow := s.allow + 1 }

/-- `allow_values_in_argument_list.pop()` -/
def allowPop : P Unit := fun s => .ok () { s with allow := s.allow - 1 }

/-- whether `allow_values_in_argument_list` holds anything -/
def allowed : P Bool := fun s => .ok (decide (s.allow > 0)) s

/-- the result of a call, with `allow_values_in_argument_list.pop()` done in any case -/
def thenPop {α : Type} (f : P α) : P α := fun s =>
  match f s with
  | .ok a s' => .ok a { s' with allow := s'.allow - 1 }
  | .err s' => .err { s' with allow := s'.allow - 1 }
  | .deep => .deep
  | .hang => .hang

/-- function.rs 12-36, `parse_function` -/
def function (k : Rec) : P Node := do
  let n ← consumeFunction
  let args ← recurse (if n = "alpha".toList then do allowPush; thenPop k.args else k.args)
  if !(← atEof) then expect .rParen
  return .function n args

/-- value.rs 98-155: a value that begins with an identifier -/
def identValue (env : Env) (k : Rec) (v : Str) : P (Option Node) := do
  if eqCi v "progid".toList then
    expect .colon
    consumeIdentCi "dximagetransform".toList
    expect (.delim '.')
    consumeIdentCi "microsoft".toList
    expect (.delim '.')
    allowPush
    let f ← function k
    allowPop
    return some (.msFunction f)
  else if (← allowed) then
    if (← lookahead 0) = .delim '=' then
      expect (.delim '=')
      match ← consume with
      | .quotedString d => return some (.msIdent v d)
      | .number d => return some (.msIdent v (env.num d))
      | .ident d => return some (.msIdent v d)
      | _ => fail
    else if eqCi v "u+".toList then fail
    else return some (.ident v)
  else if eqCi v "u+".toList then fail
  else return some (.ident v)

/-- value.rs 42-176, `parse_value` -/
def value (env : Env) (k : Rec) : P (Option Node) := do
  match ← consume with
  | .hash v => return some (.hash v)
  | .comma => return some .comma
  | .lBracket => fail
  | .quotedString v => return some (.str v)
  | .dimension v u => return some (.dimension v u)
  | .percentage v => return some (.percentage v)
  | .number v => return some (.number v)
  | .function n =>
    if n.map lowerChar = "calc".toList then return some (← calcValue env k)
    else if n.map lowerChar = "url".toList then
      reconsume
      return some (← url)
    else
      reconsume
      return some (← function k)
  | .url u => return some (.url u)
  | .unicodeRange v => return some (.str v)
  | .ident v => identValue env k v
  | .delim c =>
    if c ∈ ['+', '-', '*', '/'] then
      reconsume
      return some (← operator)
    else if c = '#' then fail
    else
      reconsume
      return none
  | _ =>
    reconsume
    return none

/-- value.rs 9-35, `parse_value_sequence`; function.rs 7-10, `parse_function_arguments` -/
def values (env : Env) (k : Rec) : P (List Node) :=
  forever (fun acc : List Node => do
    if (← atEof) then return .inr acc
    if (← consume) ≠ .whitespace then reconsume
    match ← value env k with
    | none => return .inr acc
    | some n => return .inl (acc ++ [n])) []

/-! ## Selectors: selector.rs, selector_list.rs, combinator.rs, pseudo.rs, anplusb.rs -/

/-- selector.rs 9-36, `parse_attribute_operator` -/
def attributeOperator : P Node := do
  let c ← consumeAnyDelim
  if c ∈ ['=', '~', '|', '^', '$', '*'] then
    if c ≠ '=' then
      expect (.delim '=')
      return .operator [c, '=']
    else return .operator [c]
  else
    reconsume
    fail

/-- selector.rs 38-48, `parse_class_selector` -/
def classSelector : P Node := do
  expect (.delim '.')
  return .classSelector (← consumeAnyIdent)

/-- selector.rs 50-58, `parse_nesting_selector` -/
def nestingSelector : P Node := do
  expect (.delim '&')
  return .nestingSelector

/-- selector.rs 60-76 -/
def typeIdentOrAsterisk : P Str := do
  match ← lookahead 0 with
  | .ident v =>
    let _ ← consume
    return v
  | .delim '*' =>
    let _ ← consume
    return ['*']
  | _ => fail

/-- `str::split_once` at `|`, with what selector.rs 100-103 makes of it -/
def splitBar (v : Str) : Option Str × Str :=
  if '|' ∈ v then (some (v.takeWhile (· ≠ '|')), (v.dropWhile (· ≠ '|')).drop 1) else (none, v)

/-- selector.rs 78-112, `parse_type_selector` -/
def typeSelector : P Node := do
  let v ← (do
    if (← current) = .delim '|' then
      let _ ← consume
      let w ← typeIdentOrAsterisk
      return '|' :: w
    else
      let w ← typeIdentOrAsterisk
      if (← current) = .delim '|' then
        let _ ← consume
        let u ← typeIdentOrAsterisk
        return w ++ ['|'] ++ u
      else return w : P Str)
  return .typeSelector (splitBar v).1 (splitBar v).2

/-- `Token::is_ident` -/
def isIdent : Token → Bool
  | .ident _ => true
  | _ => false

/-- `Token::is_string` -/
def isString : Token → Bool
  | .quotedString _ => true
  | _ => false

/-- selector.rs 131-148: the operator and the value in an attribute selector -/
def attributeValue (t : Token) : P (Option Node × Str) := do
  if isIdent t then return (none, [])
  else
    let op ← attributeOperator
    skipWs
    let t ← lookahead 0
    if isString t then return (some op, ← consumeAnyString)
    else if isIdent t then return (some op, ← consumeAnyIdent)
    else fail

/-- selector.rs 152-156: the flags in an attribute selector -/
def attributeFlags : P Str := do
  if isIdent (← lookahead 0) then
    let f ← consumeAnyIdent
    skipWs
    return f
  else return []

/-- selector.rs 114-171, `parse_attribute_selector` -/
def attributeSelector : P Node := do
  expect .lBracket
  skipWs
  let name ← consumeAnyIdent
  skipWs
  let t ← lookahead 0
  if t ≠ .rBracket then
    let (op, v) ← attributeValue t
    skipWs
    let f ← attributeFlags
    expect .rBracket
    skipWs
    return .attributeSelector name op v f
  else
    expect .rBracket
    skipWs
    return .attributeSelector name none [] []

/-- selector.rs 173-192, `parse_id_selector` -/
def idSelector : P Node := do
  expect (.delim '#')
  match ← consume with
  | .ident v => return .idSelector v
  | _ => fail

/-- selector.rs 194-223, `parse_pseudo_element_selector` -/
def pseudoElementSelector (env : Env) (k : Rec) : P Node := do
  expect .colon
  expect .colon
  match ← consume with
  | .ident v => return .pseudoElementSelector v
  | .function n =>
    let _ ← recurse (k.pseudo (env.lower n))
    expect .rParen
    return .pseudoElementSelector n
  | _ => fail

/-- selector.rs 225-257, `parse_pseudo_selector` -/
def pseudoSelector (env : Env) (k : Rec) : P Node := do
  expect .colon
  match ← consume with
  | .ident v => return .pseudoClassSelector (.ident v)
  | .function n =>
    let args ← recurse (k.pseudo (env.lower n))
    expect .rParen
    return .pseudoClassSelector (.function (env.lower n) [args])
  | _ => fail

/-- combinator.rs 8-40, `parse_combinator` -/
def combinator : P Node := do
  let name ← (do
    match ← consume with
    | .whitespace => return [' ']
    | .delim '+' => return ['+']
    | .delim '>' => return ['>']
    | .delim '~' => return ['~']
    | .delim '/' =>
      let t1 ← lookahead 1
      let t2 ← lookahead 2
      if t1 = .ident "deep".toList ∧ t2 = .delim '/' then return "/deep/".toList else fail
    | _ => fail : P Str)
  skipWs
  return .combinator name

/-- selector.rs 293-350: the part of a selector that begins with `t`; `none` is the end of the selector. The second component
tells whether the space seen before it is forgotten (319), the third whether space after it is skipped (342). -/
def selectorPart (env : Env) (k : Rec) (t : Token) : P (Option (Node × Bool × Bool)) := do
  match t with
  | .lBracket =>
    reconsume
    return some (← attributeSelector, false, false)
  | .hash v => return some (.idSelector v, false, false)
  | .colon =>
    if (← lookahead 0) = .colon then
      reconsume
      return some (← pseudoElementSelector env k, false, false)
    else
      reconsume
      return some (← pseudoSelector env k, false, false)
  | .ident v => return some (.ident v, false, false)
  | .number v => return some (.number v, false, false)
  | .percentage v => return some (.percentage v, false, false)
  | .dimension v u => return some (.dimension v u, false, false)
  | .delim c =>
    if c ∈ ['+', '>', '~', '/'] then
      reconsume
      return some (← combinator, true, false)
    else if c = '.' then
      reconsume
      return some (← classSelector, false, false)
    else if c ∈ ['|', '*'] then
      reconsume
      return some (← typeSelector, false, false)
    else if c = '#' then
      reconsume
      return some (← idSelector, false, false)
    else if c = '&' then
      reconsume
      return some (← nestingSelector, false, false)
    else
      reconsume
      return none
  | .comma => return some (.comma, false, true)
  | _ =>
    reconsume
    return none

/-- what `parse_selector` carries through its loop: `children`, `space` and `skip_space` -/
structure SelState where
  children : List Node
  space : Bool
  skip : Bool

/-- selector.rs 273-361: one round -/
def selectorRound (env : Env) (k : Rec) (x : SelState) : P (SelState ⊕ List Node) := do
  if (← atEof) then return .inr x.children
  let t ← consume
  if t = .whitespace then
    if x.skip then return .inl x else return .inl { x with space := true }
  else
    match ← selectorPart env k t with
    | none => return .inr x.children
    | some (n, forget, skip) =>
      if x.space && !forget then return .inl ⟨x.children ++ [.combinator [' '], n], false, skip⟩
      else return .inl ⟨x.children ++ [n], false, skip⟩

/-- selector.rs 259-364, `parse_selector` -/
def selector (env : Env) (k : Rec) : P Node := do
  return .selector (← forever (selectorRound env k) ⟨[], false, false⟩)

/-- selector_list.rs 6-25, `parse_selector_list` -/
def selectorList (env : Env) (k : Rec) : P Node := do
  let l ← forever (fun acc : List Node => do
    if (← atEof) then return .inr acc
    let s ← selector env k
    if (← consume) ≠ .comma then
      reconsume
      return .inr (acc ++ [s])
    else return .inl (acc ++ [s])) []
  return .selectorList l

/-- the length of a string in bytes -/
def byteLen (v : Str) : Nat := (v.map fun c => c.utf8Size).sum

/-- anplusb.rs 60-108, `parse_anplusb_b` -/
def anPlusB_b (env : Env) : P Str := do
  skipWs
  let t ← lookahead 0
  if t = .eof ∨ t = .semicolon ∨ t = .rCurly ∨ t = .rParen then return ['0'] else
  let negative ← (do
    match t with
    | .delim '-' =>
      expect (.delim '-')
      return true
    | .delim '+' =>
      expect (.delim '+')
      return false
    | .number _ => return false
    | _ => fail : P Bool)
  skipWs
  let v ← consumeAnyNumber
  return if negative then '-' :: env.num v else env.num v

/-- anplusb.rs 48-58, `expect_char`; `c` is lower case, and `char::to_lowercase` is taken on ASCII only -/
def expectChar (v : Str) (c : Char) (offset : Nat) : P Unit :=
  if lowerChar (v[offset]?.getD ' ') = c then pure () else fail

/-- anplusb.rs 25-46, `check_integer`, with `allow_sign` false; its answer is ignored by its callers -/
def checkInteger (v : Str) (offset : Nat) : P Unit :=
  if v[offset]? = some '+' ∨ v[offset]? = some '-' then fail else pure ()

/-- anplusb.rs 7-23, `do_dimension_block` -/
def dimensionBlock (env : Env) (v u : Str) : P (Str × Str) := do
  if lowerChar (u.head?.getD ' ') ≠ 'n' then fail else
  if byteLen u = 1 then return (env.num v, ← anPlusB_b env) else return (env.num v, u.drop 1)

/-- anplusb.rs 110-142, `do_negative_block` -/
def negativeBlock (env : Env) (v : Str) : P (Str × Str) := do
  expectChar v 'n' 1
  if byteLen v = 2 then
    let _ ← consume
    return ("-1".toList, ← anPlusB_b env)
  else if byteLen v = 3 then
    expectChar v '-' 2
    let _ ← consume
    skipWs
    checkInteger v 0
    let s ← consumeAnyNumber
    return ("-1".toList, '-' :: env.num s)
  else
    expectChar v '-' 2
    checkInteger v 3
    return ("-1".toList, "foobar".toList)

/-- anplusb.rs 144-176, `do_plus_block` -/
def plusBlock (env : Env) (v : Str) : P (Str × Str) := do
  expectChar v 'n' 0
  if byteLen v = 1 then
    let _ ← consume
    return ("1".toList, ← anPlusB_b env)
  else if byteLen v = 2 then
    expectChar v '-' 1
    let _ ← consume
    skipWs
    checkInteger v 0
    let s ← consumeAnyNumber
    return ("1".toList, '-' :: env.num s)
  else
    expectChar v '-' 1
    checkInteger v 2
    return ("1".toList, "foobar".toList)

/-- anplusb.rs 216-222 -/
def dropPlus : Str → Str
  | '+' :: r => r
  | v => v

/-- anplusb.rs 178-225, `parse_anplusb` -/
def anPlusB (env : Env) : P Node := do
  let (a, b) ← (do
    match ← consume with
    | .number _ =>
      reconsume
      let v ← consumeAnyNumber
      return ("1".toList, env.num v)
    | .ident v =>
      reconsume
      if v.head? = some '-' then negativeBlock env v else plusBlock env v
    | .delim '+' =>
      if isIdent (← lookahead 1) then
        let v ← consumeAnyIdent
        plusBlock env v
      else
        reconsume
        fail
    | .dimension v u => dimensionBlock env v u
    | _ =>
      reconsume
      fail : P (Str × Str))
  return .anPlusB (dropPlus a) (dropPlus b)

/-- pseudo.rs 49-102, `parse_pseudo_function_nth` -/
def pseudoNth (env : Env) (k : Rec) : P Node := do
  skipWs
  let n ← (do
    match ← consume with
    | .ident v =>
      if v = "odd".toList then return .anPlusB ['2'] ['1']
      else if v = "even".toList then return .anPlusB ['2'] ['0']
      else
        reconsume
        anPlusB env
    | .dimension _ _ =>
      reconsume
      anPlusB env
    | .number v => return .number v
    | _ =>
      let _ ← lookahead 0
      fail : P Node)
  skipWs
  match ← lookahead 0 with
  | .ident v =>
    let _ ← consume
    if v = "of".toList then return .nth n (some (← selectorList env k)) else return .nth n none
  | _ => return .nth n none

/-- pseudo.rs 19-27 -/
def pseudoIdentList : P Node := do
  return .ident (← consumeAnyIdent)

/-- pseudo.rs 30-47 -/
def pseudoIdentSequence : P Node := do
  let l ← forever (fun acc : List Node => do
    skipWs
    if isIdent (← lookahead 0) then return .inl (acc ++ [.ident (← consumeAnyIdent)])
    else return .inr acc) []
  return .value l

/-- pseudo.rs 110-136, `parse_pseudo_function_inner` -/
def pseudoInner (env : Env) (k : Rec) (name : Str) : P Node :=
  if name ∈ ["dir".toList, "lang".toList, "highlight".toList] then pseudoIdentList
  else if name ∈ ["has".toList, "matches".toList, "is".toList, "-moz-any".toList, "-webkit-any".toList, "where".toList,
      "not".toList] then selectorList env k
  else if name ∈ ["nth-child".toList, "nth-last-child".toList, "nth-last-of-type".toList, "nth-of-type".toList] then
    pseudoNth env k
  else if name ∈ ["slotted".toList, "host".toList, "host-context".toList] then selector env k
  else if name = "part".toList then pseudoIdentSequence
  else fail

/-! ## Media queries: at_rule/media.rs, condition.rs, feature_function.rs -/

/-- media.rs 8-27, `parse_media_read_term` -/
def mediaTerm (k : Rec) : P Node := do
  skipWs
  match ← consume with
  | .ident v => return .ident v
  | .number v => return .number v
  | .dimension v u => return .dimension v u
  | .function _ =>
    reconsume
    function k
  | _ => fail

/-- media.rs 29-51, `parse_media_read_comparison` -/
def mediaComparison : P Node := do
  skipWs
  let c ← consumeAnyDelim
  if c = '=' then return .operator ['=']
  else if c = '>' ∨ c = '<' then
    skipWs
    if (← lookahead 0) = .delim '=' then
      let _ ← consume
      return .operator [c, '=']
    else return .operator [c]
  else fail

/-- media.rs 99-131: the value of a feature -/
def mediaFeatureValue (k : Rec) : P Node := do
  let first ← (do
    match ← consume with
    | .number v => return .number v
    | .dimension v u => return .dimension v u
    | .ident v => return .ident v
    | .function _ =>
      reconsume
      function k
    | _ => fail : P Node)
  skipWs
  if (← lookahead 0) = .delim '/' then
    let _ ← consume
    let second ← mediaTerm k
    return .value [first, .operator ['/'], second]
  else return first

/-- media.rs 76-141, `parse_media_feature_feature` -/
def mediaFeature (k : Rec) (kind : Kind) : P Node := do
  expect .lParen
  skipWs
  let name ← consumeAnyIdent
  skipWs
  let t ← consume
  skipWs
  if t = .rParen then return .feature kind name none
  else if t ≠ .colon then fail
  else
    skipWs
    let v ← mediaFeatureValue k
    skipWs
    if !(← atEof) then expect .rParen
    return .feature kind name (some v)

/-- media.rs 143-182, `parse_media_feature_range` -/
def mediaRange (k : Rec) : P Node := do
  skipWs
  expect .lParen
  let left ← mediaTerm k
  let lc ← mediaComparison
  let middle ← mediaTerm k
  skipWs
  let t ← lookaheadSc 0
  let (rc, right) ← (do
    if t = .delim '<' ∨ t = .delim '>' ∨ t = .delim '=' then
      let rc ← mediaComparison
      let r ← mediaTerm k
      return (some rc, some r)
    else return (none, none) : P (Option Node × Option Node))
  skipWs
  expect .rParen
  return .range left lc middle rc right

/-- media.rs 184-196, `parse_media_feature_or_range` -/
def mediaFeatureOrRange (k : Rec) (kind : Kind) : P Node := do
  let t ← lookaheadSc 1
  let nt ← lookaheadSc 2
  if isIdent t && (nt = .colon || nt = .rParen) then mediaFeature k kind else mediaRange k

/-- condition.rs 15-60: one round. `inr` with `some` is the early return of 46. -/
def conditionRound (k : Rec) (kind : Kind) (acc : List Node) : P (List Node ⊕ (Option Node × List Node)) := do
  match ← consume with
  | .whitespace => return .inl acc
  | .url u => return .inl (acc ++ [.url u])
  | .ident v => return .inl (acc ++ [.ident v])
  | .lParen =>
    reconsume
    if kind = .supports then fail else
    match ← attempt (mediaFeatureOrRange k kind) with
    | some t => return .inl (acc ++ [t])
    | none =>
      expect .rParen
      let res ← k.cond kind
      expect .lParen
      return .inr (some res, acc)
  | .function _ => return .inl (acc ++ [.featureFunction])
  | _ =>
    reconsume
    return .inr (none, acc)

/-- condition.rs 8-67, `parse_condition` -/
def condition (k : Rec) (kind : Kind) : P Node := do
  match ← forever (conditionRound k kind) [] with
  | (some res, _) => return res
  | (none, l) => if l.isEmpty then fail else return .condition l

/-- media.rs 198-274, `parse_media_query` -/
def mediaQuery (env : Env) (k : Rec) : P Node := do
  skipWs
  let t ← consume
  let nt ← lookaheadSc 0
  match t with
  | .ident v =>
    if nt ≠ .lParen then
      let (modifier, mediaType) ← (do
        if env.lower v ∈ ["not".toList, "only".toList] then
          skipWs
          return (v, ← consumeAnyIdent)
        else return ([], v) : P (Str × Str))
      skipWs
      match ← lookaheadSc 0 with
      | .ident w =>
        if w ≠ "and".toList then fail
        else
          consumeIdent "and".toList
          return .mediaQuery modifier mediaType (some (← condition k .media))
      | .lCurly => return .mediaQuery modifier mediaType none
      | .semicolon => return .mediaQuery modifier mediaType none
      | .comma => return .mediaQuery modifier mediaType none
      | _ => fail
    else
      reconsume
      return .mediaQuery [] [] (some (← condition k .media))
  | .lParen =>
    reconsume
    return .mediaQuery [] [] (some (← condition k .media))
  | .function _ =>
    reconsume
    return .mediaQuery [] [] (some (← condition k .media))
  | .lCurly => return .mediaQuery [] [] none
  | .semicolon => return .mediaQuery [] [] none
  | _ => fail

/-- media.rs 53-74, `parse_media_query_list` -/
def mediaQueryList (env : Env) (k : Rec) : P Node := do
  let l ← forever (fun acc : List Node => do
    if (← atEof) then return .inr acc
    let q ← mediaQuery env k
    skipWs
    if (← consume) ≠ .comma then
      reconsume
      return .inr (acc ++ [q])
    else return .inl (acc ++ [q])) []
  return .mediaQueryList l

/-! ## At-rules: at_rule.rs and at_rule/*.rs -/

/-- container.rs 7-27 -/
def containerPrelude (k : Rec) : P Node := do
  match ← consume with
  | .ident v =>
    let c ← condition k .container
    if v ∈ ["none".toList, "and".toList, "not".toList, "or".toList] then return .container [c]
    else return .container [.ident v, c]
  | _ =>
    reconsume
    let c ← condition k .container
    return .container [c]

/-- media.rs 286-302 -/
def customMediaPrelude (env : Env) (k : Rec) : P Node := do
  let name ← consumeAnyIdent
  skipWs
  let q ← mediaQueryList env k
  return .value [.ident name, q]

/-- at_rule.rs 50-77 -/
def customSelectorPrelude (env : Env) (k : Rec) : P Node := do
  expect .colon
  let name ← consumeAnyIdent
  skipWs
  let l ← selectorList env k
  return .value [.ident (':' :: name), l]

/-- import.rs 7-60 -/
def importPrelude (k : Rec) : P Node := do
  let first ← (do
    match ← consume with
    | .quotedString v => return .str v
    | .url u => return .url u
    | .function n =>
      if eqCi n "url".toList then
        reconsume
        url
      else fail
    | _ => fail : P Node)
  skipWs
  let layer ← (do
    match ← lookaheadSc 0 with
    | .ident v => if eqCi v "layer".toList then return [.ident v] else return []
    | .function n => if eqCi n "layer".toList then return [← function k] else return []
    | _ => return [] : P (List Node))
  skipWs
  let supports ← (do
    match ← lookaheadSc 0 with
    | .function n => if eqCi n "supports".toList then return [← function k] else return []
    | _ => return [] : P (List Node))
  skipWs
  return .importList ([first] ++ layer ++ supports)

/-- layer.rs 9-35, `parse_layer_query` -/
def layerQuery : P Node := do
  let first ← consumeAnyIdent
  let name ← forever (fun name : Str => do
    if (← lookahead 0) ≠ .delim '.' then return .inr name
    else
      let _ ← consume
      match ← consume with
      | .ident part => return .inl (name ++ ['.'] ++ part)
      | _ =>
        reconsume
        return .inr name) first
  return .ident name

/-- layer.rs 37-68 -/
def layerPrelude : P Node := do
  skipWs
  let l ← forever (fun acc : List Node => do
    if (← atEof) then return .inr acc
    let t ← lookahead 0
    if t = .lCurly ∨ t = .semicolon ∨ t = .eof then return .inr acc
    else
      let q ← layerQuery
      skipWs
      if (← consume) ≠ .comma then
        reconsume
        return .inr (acc ++ [q])
      else
        skipWs
        return .inl (acc ++ [q])) []
  return .layerList l

/-- nest.rs 6-27 and page.rs 6-27 -/
def nestPrelude (env : Env) (k : Rec) : P Node := do
  let l ← forever (fun acc : List Node => do
    if (← atEof) then return .inr acc
    let s ← selector env k
    skipWs
    if (← consume) ≠ .comma then
      reconsume
      return .inr (acc ++ [s])
    else return .inl (acc ++ [s])) []
  return .selectorList l

/-- scope.rs 7-37 -/
def scopePrelude (env : Env) (k : Rec) : P Node := do
  skipWs
  match ← consume with
  | .lParen =>
    skipWs
    let root ← selectorList env k
    skipWs
    expect .rParen
    return .scope (some root) none
  | .ident _ =>
    skipWs
    consumeIdent "to".toList
    skipWs
    expect .rParen
    skipWs
    let limit ← selectorList env k
    skipWs
    expect .rParen
    return .scope none (some limit)
  | _ => return .scope none none

/-- supports.rs 6-15 -/
def supportsPrelude (env : Env) : P Node := do
  return .raw (← consumeRawCondition env)

/-- at_rule.rs 79-90 -/
def sequencePrelude (env : Env) (k : Rec) : P Node := do
  let _ ← lookahead 0
  return .container (← values env k)

/-- at_rule.rs 96-110 -/
def preludeNode (env : Env) (k : Rec) (name : Str) : P (Option Node) :=
  let n := env.lower name
  if n = "container".toList then do return some (← containerPrelude k)
  else if n = "custom-media".toList then do return some (← customMediaPrelude env k)
  else if n = "custom-selector".toList then do return some (← customSelectorPrelude env k)
  else if n = "font-face".toList then pure none
  else if n = "import".toList then do return some (← importPrelude k)
  else if n = "layer".toList then do return some (← layerPrelude)
  else if n = "media".toList then do return some (← mediaQueryList env k)
  else if n = "nest".toList ∨ n = "page".toList then do return some (← nestPrelude env k)
  else if n = "scope".toList then do return some (← scopePrelude env k)
  else if n = "starting-style".toList then pure none
  else if n = "supports".toList then do return some (← supportsPrelude env)
  else do return some (← sequencePrelude env k)

/-- at_rule.rs 92-123, `parse_at_rule_prelude` -/
def atPrelude (env : Env) (k : Rec) (name : Str) : P (Option Node) := do
  skipWs
  let n ← preludeNode env k name
  skipWs
  let t ← lookahead 0
  if !(← atEof) && t ≠ .semicolon && t ≠ .lCurly then fail else return n

/-- at_rule.rs 20-44, `declaration_block_at_rule`, from offset 1 on: whether the end of the tokens is reached. Every way out gives
the same mode. -/
def scanBlock : List Token → Bool
  | [] => true
  | .rCurly :: _ => false
  | .lCurly :: _ => false
  | .eof :: _ => false
  | .atKeyword _ :: _ => false
  | _ :: r => scanBlock r

/-- at_rule.rs 20-44, `declaration_block_at_rule` -/
def declarationBlock : P Mode := fun s =>
  .ok .regular { s with next := if scanBlock ((pad 1 s.next).drop 1) then pad 1 s.next ++ [.eof] else pad 1 s.next }

/-- at_rule.rs 125-164, `parse_at_rule_block` -/
def atBlock (env : Env) (k : Rec) (name : Str) (isDecl : Bool) : P (Option Node) := do
  if (← consume) ≠ .lCurly then return none else
  let mode := if isDecl then Mode.style else Mode.regular
  let n := env.lower name
  if n = "import".toList then return none else
  let mode ← (if n ∈ ["container".toList, "media".toList, "scope".toList, "starting-style".toList, "supports".toList] then pure mode
    else if n ∈ ["font-face".toList, "nest".toList, "page".toList] then pure .style
    else if n = "layer".toList then pure .regular
    else declarationBlock : P Mode)
  let b ← recurse (k.block mode)
  expect .rCurly
  return some b

/-- at_rule.rs 183-208, `parse_at_rule_internal` -/
def atRuleInternal (env : Env) (k : Rec) (isDecl : Bool) : P Node := do
  match ← consume with
  | .atKeyword name =>
    skipWs
    let prelude ← atPrelude env k name
    skipWs
    let block ← atBlock env k name isDecl
    skipWs
    return .atRule name prelude block
  | _ => fail

/-! ## Rules, blocks and declarations: rule.rs, block.rs, declaration.rs, stylesheet.rs -/

/-- block.rs 61-95, on the tokens: `()`, `[]`, `{}` and functions are balanced -/
def ruleEnd : Nat → List Token → List Token → List Token × List Token
  | _, p, [] => (.eof :: p, [])
  | d, p, t :: r =>
    match t with
    | .lParen | .lBracket | .lCurly | .function _ => ruleEnd (d + 1) (t :: p) r
    | .rParen | .rBracket => ruleEnd (d - 1) (t :: p) r
    | .rCurly => if d = 0 then (p, t :: r) else if d - 1 = 0 then (t :: p, r) else ruleEnd (d - 1) (t :: p) r
    | .semicolon => if d = 0 then (t :: p, r) else ruleEnd d (t :: p) r
    | .eof => (t :: p, r)
    | _ => ruleEnd d (t :: p) r

/-- block.rs 61-95, `parse_until_rule_end` -/
def untilRuleEnd : P Unit := fun s =>
  .ok () { s with prev := (ruleEnd 0 s.prev s.next).1, next := (ruleEnd 0 s.prev s.next).2 }

/-- at_rule.rs 169-181, `parse_at_rule` -/
def atRule (env : Env) (k : Rec) (isDecl : Bool) : P (Option Node) := do
  match ← attempt (atRuleInternal env k isDecl) with
  | some n => return some n
  | none =>
    if env.ignore then
      untilRuleEnd
      return none
    else fail

/-- rule.rs 25-44, `parse_rule_internal` -/
def ruleInternal (env : Env) (k : Rec) : P Node := do
  let prelude ← selectorList env k
  expect .lCurly
  skipWs
  let block ← recurse (k.block .style)
  expect .rCurly
  return .rule (some prelude) (some block)

/-- rule.rs 11-23, `parse_rule` -/
def rule (env : Env) (k : Rec) : P (Option Node) := do
  match ← attempt (ruleInternal env k) with
  | some n => return some n
  | none =>
    if env.ignore then
      untilRuleEnd
      return none
    else fail

/-- declaration.rs 107-124, on the tokens -/
def customEnd : Nat → List Token → List Token → List Token × List Token
  | _, p, [] => (p, [.eof])
  | d, p, t :: r =>
    match t with
    | .eof => (p, t :: r)
    | .semicolon => if d = 0 then (p, t :: r) else customEnd d (t :: p) r
    | .lParen | .lBracket | .lCurly | .function _ => customEnd (d + 1) (t :: p) r
    | .rParen | .rBracket => customEnd (d - 1) (t :: p) r
    | .rCurly => if d = 0 then (p, t :: r) else customEnd (d - 1) (t :: p) r
    | _ => customEnd d (t :: p) r

/-- declaration.rs 107-124, `skip_custom_property_remainder` -/
def skipCustom : P Unit := fun s =>
  .ok () { s with prev := (customEnd 0 s.prev s.next).1, next := (customEnd 0 s.prev s.next).2 }

/-- declaration.rs 83-91: whether the declaration is important -/
def important : P Bool := do
  if (← consume) = .delim '!' then
    consumeIdent "important".toList
    skipWs
    return true
  else
    reconsume
    return false

/-- declaration.rs 51-101, `parse_declaration_internal` -/
def declarationInternal (env : Env) (k : Rec) : P Node := do
  let property ← consumeAnyIdent
  let custom := "--".toList.isPrefixOf property
  skipWs
  expect .colon
  if !custom then skipWs
  skipWs
  let v ← values env k
  if custom then
    skipCustom
    return .declaration property v (← important)
  else if v.isEmpty then fail
  else return .declaration property v (← important)

/-- declaration.rs 126-149, on the tokens -/
def declEnd : List Token → List Token → List Token × List Token
  | p, [] => (.eof :: p, [])
  | p, .semicolon :: r => (p, .semicolon :: r)
  | p, .rCurly :: r => (p, .rCurly :: r)
  | p, .eof :: r => (.eof :: p, r)
  | p, t :: r => declEnd (t :: p) r

/-- declaration.rs 126-149, `parse_until_declaration_end` -/
def untilDeclEnd : P Unit := fun s => .ok () { s with prev := (declEnd s.prev s.next).1, next := (declEnd s.prev s.next).2 }

/-- declaration.rs 35-49, `parse_declaration` -/
def declaration (env : Env) (k : Rec) : P (Option Node) := do
  match ← attempt (declarationInternal env k) with
  | some n => return some n
  | none =>
    if env.ignore then
      untilDeclEnd
      return none
    else return none

/-- block.rs 25-41, on the tokens: the answer, and whether the end of the tokens is reached -/
def scanNested : Nat → List Token → Bool × Bool
  | _, [] => (false, true)
  | d, t :: r =>
    match t with
    | .lParen | .lBracket | .function _ => scanNested (d + 1) r
    | .rParen | .rBracket => scanNested (d - 1) r
    | .lCurly => if d = 0 then (true, false) else scanNested d r
    | .semicolon | .rCurly => if d = 0 then (false, false) else scanNested d r
    | .eof => (false, false)
    | _ => scanNested d r

/-- block.rs 25-41, `starts_nested_rule` -/
def startsNested : P Bool := fun s =>
  .ok (scanNested 0 s.next).1 { s with next := if (scanNested 0 s.next).2 then s.next ++ [.eof] else s.next }

/-- block.rs 101-122, on the tokens -/
def skipEnd : Nat → List Token → List Token → List Token × List Token
  | _, p, [] => (p, [.eof])
  | d, p, t :: r =>
    match t with
    | .eof => (p, t :: r)
    | .semicolon => if d = 0 then (t :: p, r) else skipEnd d (t :: p) r
    | .rCurly => if d = 0 then (p, t :: r) else skipEnd (d - 1) (t :: p) r
    | .lParen | .lBracket | .lCurly | .function _ => skipEnd (d + 1) (t :: p) r
    | .rParen | .rBracket => skipEnd (d - 1) (t :: p) r
    | _ => skipEnd d (t :: p) r

/-- block.rs 101-122, `skip_to_declaration_end` -/
def skipToDeclEnd : P Unit := fun s =>
  .ok () { s with prev := (skipEnd 0 s.prev s.next).1, next := (skipEnd 0 s.prev s.next).2 }

/-- block.rs 183-207: an item of a block that is no at-rule -/
def blockItem (env : Env) (k : Rec) (mode : Mode) (children : List Node) (semi : Bool) : P (List Node × Bool) := do
  match mode with
  | .style =>
    if !semi then
      if env.ignore then
        reconsume
        skipToDeclEnd
        return (children, true)
      else fail
    else
      reconsume
      if (← startsNested) then
        let n ← rule env k
        return (children ++ n.toList, true)
      else
        let n ← declaration env k
        return (children ++ n.toList, false)
  | .regular =>
    reconsume
    let n ← rule env k
    return (children ++ n.toList, false)

/-- block.rs 137-210: one round; the state is `children` and `semicolon_seperated` -/
def blockRound (env : Env) (k : Rec) (mode : Mode) (x : List Node × Bool) : P ((List Node × Bool) ⊕ List Node) := do
  if (← atEof) then return .inr x.1
  match ← consume with
  | .rCurly =>
    reconsume
    return .inr x.1
  | .whitespace => return .inl x
  | .atKeyword _ =>
    reconsume
    let n ← atRule env k (mode = .style)
    return .inl (x.1 ++ n.toList, false)
  | .semicolon => return .inl (x.1, true)
  | _ => return .inl (← blockItem env k mode x.1 x.2)

/-- block.rs 130-215, `parse_block_inner` -/
def blockInner (env : Env) (k : Rec) (mode : Mode) : P Node := do
  return .block (← forever (blockRound env k mode) ([], true))

/-- stylesheet.rs 14-48: one round -/
def sheetRound (env : Env) (k : Rec) (acc : List Node) : P (List Node ⊕ List Node) := do
  if (← atEof) then return .inr acc
  match ← consume with
  | .eof => return .inl acc
  | .whitespace => return .inl acc
  | .cdo => return .inl (acc ++ [.cdo])
  | .cdc => return .inl (acc ++ [.cdc])
  | .atKeyword _ =>
    reconsume
    let n ← atRule env k false
    return .inl (acc ++ n.toList)
  | _ =>
    reconsume
    let n ← rule env k
    return .inl (acc ++ n.toList)

/-- stylesheet.rs 7-59, `parse_stylesheet_internal` -/
def sheet (env : Env) (k : Rec) : P (Option Node) := do
  let l ← forever (sheetRound env k) []
  if l.isEmpty then return none else return some (.styleSheet l)

/-- the functions of the cycle, given those one stack level down -/
def level (env : Env) (k : Rec) : Rec where
  block := blockInner env k
  args := values env k
  expr := calcExpr env k
  pseudo := pseudoInner env k
  cond := condition k

/-- the functions of the cycle with `d` levels of stack -/
def Rec.at (env : Env) : Nat → Rec
  | 0 => ⟨fun _ _ => .deep, fun _ => .deep, fun _ => .deep, fun _ _ => .deep, fun _ _ => .deep⟩
  | d + 1 => level env (Rec.at env d)

/-- lib.rs 58-67, `Css3::new`, on the tokens of the text -/
def PS.new (ts : List Token) : PS := ⟨[], ts, 0, 0⟩

/-- lib.rs 119-124: the tree of a stylesheet, with `d` levels of stack -/
def parseTree (env : Env) (d : Nat) (ts : List Token) : Res (Option Node) := sheet env (Rec.at env d) (PS.new ts)

/-! ## ast.rs -/

/-- stylesheet.rs 402-416, `CssValue`, as far as `parse_ast_node` makes it. A colour is kept as what it is made from. -/
inductive CssValue
  | str (v : Str)
  | zero
  | number (v : Str)
  | percentage (v : Str)
  | unit (v u : Str)
  | color (v : Str)
  | function (name : Str) (args : List CssValue)
  | comma
  | list (l : List CssValue)

mutual
/-- stylesheet.rs 543-600, `parse_ast_node`; `none` is an error. That a colour function becomes a colour (586-590) is left out: it is
a function of the name and the arguments given here. -/
def toValue (zero : Str → Bool) : Node → Option CssValue
  | .ident v => some (.str v)
  | .number v => some (if zero v then .zero else .number v)
  | .percentage v => some (.percentage v)
  | .dimension v u => some (.unit v u)
  | .str v => some (.str v)
  | .hash v => some (.color ('#' :: v))
  | .operator v => some (.str v)
  | .calcFn (.raw v) => some (.function "calc".toList [.str v])
  | .calcFn _ => some (.function "calc".toList [.str []])
  | .url u => some (.function "url".toList [.str u])
  | .function n args => (toValues zero args).map (.function n)
  | .comma => some .comma
  | _ => none
/-- stylesheet.rs 579-581 -/
def toValues (zero : Str → Bool) : List Node → Option (List CssValue)
  | [] => some []
  | n :: r => (toValue zero n).bind fun v => (toValues zero r).map (v :: ·)
end

mutual
/-- node.rs 424-487, `Display` of a node -/
def Node.print (num : Str → Str) : Node → Str
  | .selectorList l => Node.prints num ", ".toList l
  | .selector l => Node.prints num [] l
  | .idSelector v => v
  | .ident v => v
  | .number v => num v
  | .percentage v => num v ++ ['%']
  | .dimension v u => num v ++ u
  | .hash v => '#' :: v
  | .str v => v
  | .url u => u
  | .function n args => n ++ ['('] ++ Node.prints num ", ".toList args ++ [')']
  | .attributeSelector n m v f => ['['] ++ n ++ (match m with | some m => m.print num | none => []) ++ v ++ f ++ [']']
  | .pseudoClassSelector v => ':' :: v.print num
  | .pseudoElementSelector v => "::".toList ++ v
  | .operator v => v
  | .classSelector v => '.' :: v
  | .typeSelector ns v => (match ns with | some n => n ++ ['|'] | none => []) ++ v
  | .combinator v => v
  | .nth n s => n.print num ++ (match s with | some s => s.print num | none => [])
  | .anPlusB a b => a ++ "n+".toList ++ b
  | .calcFn e => "calc(".toList ++ e.print num ++ [')']
  | .raw v => v
  | _ => []
/-- `collect::<Vec<String>>().join(sep)` -/
def Node.prints (num : Str → Str) (sep : Str) : List Node → Str
  | [] => []
  | [n] => n.print num
  | n :: r => n.print num ++ sep ++ Node.prints num sep r
end

open Verif.Select (Part Simple Comb Matcher AttrSel)

/-- ast.rs 89-97 -/
def combOf (v : Str) : Option Comb :=
  if v = ['>'] then some .child
  else if v = ['+'] then some .next
  else if v = ['~'] then some .subsequent
  else if v = [' '] then some .descendant
  else if v = "||".toList then some .column
  else if v = ['|'] then some .namespace
  else none

/-- ast.rs 112-134 -/
def matcherOf : Option Node → Matcher
  | none => .none
  | some (.operator op) =>
    if op = ['='] then .equals
    else if op = "~=".toList then .includes
    else if op = "|=".toList then .dash
    else if op = "^=".toList then .pre
    else if op = "$=".toList then .suf
    else if op = "*=".toList then .sub
    else .equals
  | some _ => .equals

/-- ast.rs 85-152: a part of a selector; `none` is the error of 148 and of 96 -/
def partOf (num : Str → Str) : Node → Option Part
  | .ident v => some (.simple (.type v))
  | .classSelector v => some (.simple (.cls v))
  | .combinator v => (combOf v).map .comb
  | .idSelector v => some (.simple (.id v))
  | .typeSelector _ v => some (.simple (if v = ['*'] then .universal else .type v))
  | .pseudoClassSelector v => some (.simple (.pseudo (v.print num)))
  | .pseudoElementSelector v => some (.simple (.pseudoElem v))
  | .attributeSelector n m v f => some (.simple (.attr ⟨n, matcherOf m, v, eqCi f ['i']⟩))
  | _ => none

/-- ast.rs 84-158: the parts of one selector node, added to the groups so far; a comma begins a new group -/
def addParts (num : Str → Str) : List (List Part) → List Node → Option (List (List Part))
  | g, [] => some g
  | g, .comma :: r => addParts num (g ++ [[]]) r
  | g, n :: r => (partOf num n).bind fun p => addParts num (g.dropLast ++ [g.getLast?.getD [] ++ [p]]) r

/-- ast.rs 78-159 -/
def addSelectors (num : Str → Str) : List (List Part) → List Node → Option (List (List Part))
  | g, [] => some g
  | g, .selector l :: r => (addParts num g l).bind fun g => addSelectors num g r
  | g, _ :: r => addSelectors num g r

/-- stylesheet.rs 193-202, `CssDeclaration` -/
structure Decl where
  property : Str
  value : CssValue
  important : Bool

/-- stylesheet.rs 172-178, `CssRule`: the groups of its (only) selector, and its declarations -/
structure Rule where
  selectors : List (List Part)
  declarations : List Decl

/-- ast.rs 167-198 -/
def declOf (zero : Str → Bool) : Node → Option Decl
  | .declaration p v imp =>
    match v.filterMap (toValue zero) with
    | [] => none
    | [x] => some ⟨p, x, imp⟩
    | l => some ⟨p, .list l, imp⟩
  | _ => none

/-- ast.rs 64-202, `collect_rule`; the outer `none` is an error, the inner one no rule. (A rule made by the parser has a selector
list and a block; without them there is no rule.) -/
def collectRule (num : Str → Str) (zero : Str → Bool) : Node → Option (Option Rule)
  | .rule (some (.selectorList l)) (some (.block b)) =>
    (addSelectors num [[]] l).map fun g => some ⟨g, b.filterMap (declOf zero)⟩
  | _ => some none

mutual
/-- ast.rs 206-234, one node -/
def collectNode (num : Str → Str) (zero : Str → Bool) : Node → Option (List Rule)
  | .rule p b => (collectRule num zero (.rule p b)).map Option.toList
  | .atRule name _ (some (.block b)) => if eqCi name "layer".toList then collectRules num zero b else some []
  | _ => some []
/-- ast.rs 204-236, `collect_rules`, without the font faces -/
def collectRules (num : Str → Str) (zero : Str → Bool) : List Node → Option (List Rule)
  | [] => some []
  | n :: r => (collectNode num zero n).bind fun a => (collectRules num zero r).map (a ++ ·)
end

/-- what the caller of `Css3::parse_str` gets -/
inductive Outcome
  | rules (l : List Rule)
  | error
  | deep
  | hang

/-- lib.rs 111-136, `parse`, in the context of a stylesheet, with ast.rs 327-342, `convert_ast_to_stylesheet` -/
def parse (env : Env) (zero : Str → Bool) (d : Nat) (ts : List Token) : Outcome :=
  match parseTree env d ts with
  | .ok (some (.styleSheet l)) _ => match collectRules env.num zero l with
    | some r => .rules r
    | none => .error
  | .ok _ _ => .error
  | .err _ => .error
  | .deep => .deep
  | .hang => .hang

end Verif.CssParse
