import Verif.Util

/-!
# Matching a value against the grammar of its property

Models `crates/gosub_css3/src/matcher/syntax_matcher.rs`, without shorthand resolver (`matches`, 36-58), and the component types of
`matcher/syntax.rs` 33-200. The grammar is any component; how it is read from the definition files is not modelled.

Simplifications: `f32` is `Rat`. The matched values (`MatchResult::matched_values`), which only shorthands use, are left out; so is
the remainder of a result that is no match, which no caller looks at. A loop takes a number of rounds.
-/

namespace Verif.Grammar
open Verif

/-- stylesheet.rs 403-416, `CssValue` -/
inductive Value
  | none
  | color (r g b a : Rat)
  | zero
  | number (n : Rat)
  | percentage (n : Rat)
  | string (s : Str)
  | unit (n : Rat) (u : Str)
  | function (name : Str) (args : List Value)
  | initial
  | inherit
  | comma
  | list (items : List Value)

/-- syntax.rs 47-62, `SyntaxComponentMultiplier` -/
inductive Mult
  | once | star | plus | opt
  | between (a b : Nat)
  | bang
  | csv (a b : Nat)
  deriving DecidableEq

/-- syntax.rs 82-91, `NumberOrInfinity` -/
inductive Bound
  | none
  | fin (n : Int)
  | inf
  | negInf

/-- syntax.rs 95-100, `RangeType` -/
structure Range where
  min : Bound
  max : Bound

/-- syntax.rs 118-130, `contains`. (Converting the bound to `f32` is exact for numbers of up to 24 bits.) -/
def Range.contains (r : Range) (x : Rat) : Bool :=
  (match r.min with
    | .none | .negInf => true
    | .inf => false
    | .fin n => decide ((n : Rat) ≤ x)) &&
  (match r.max with
    | .none | .inf => true
    | .negInf => false
    | .fin n => decide (x ≤ (n : Rat)))

/-- syntax.rs 34-43, `GroupCombinators` -/
inductive Comb
  | juxtaposition | allAnyOrder | atLeastOneAnyOrder | exactlyOne
  deriving DecidableEq

/-- syntax.rs 135-200, the components without components inside. `function` is one with `arguments: None`; `zero` and `dimension`
are the two kinds of `Value` component that the compiler of grammars makes (syntax.rs 317-338). -/
inductive Leaf
  | keyword (kw : Str)
  | property (p : Str)
  | function (name : Str)
  | definition (datatype : Str)
  | inherit | initial | unset
  | literal (l : Str)
  | zero
  | dimension (n : Rat) (u : Str)
  | unit (lo hi : Option Rat) (units : List Str)
  | builtin (datatype : Str) (range : Range)

/-- syntax.rs 135-200, `SyntaxComponent`; `function` is one with arguments -/
inductive Component
  | leaf (l : Leaf) (ms : List Mult)
  | function (name : Str) (args : Component) (ms : List Mult)
  | group (comb : Comb) (cs : List Component) (ms : List Mult)

/-- syntax.rs 209-224, `get_multipliers` -/
def Component.ms : Component → List Mult
  | .leaf _ ms => ms
  | .function _ _ ms => ms
  | .group _ _ ms => ms

/-- syntax_matcher.rs 1078-1080, `is_comma_literal` -/
def Component.isComma : Component → Bool
  | .leaf (.literal l) _ => l = [',']
  | _ => false

/-- the tables of colour names, colors.rs -/
structure Env where
  named : Str → Bool
  system : Str → Bool

/-- syntax_matcher.rs 17-20 -/
def lengthUnits : List Str := ["cap", "ch", "em", "ex", "ic", "lh", "rcap", "rch", "rem", "rex", "ric", "rlh", "vh", "vw", "vmax",
  "vmin", "vb", "vi", "cqw", "cqh", "cqi", "cqb", "cqmin", "cqmax", "px", "cm", "mm", "Q", "in", "pc", "pt"].map String.toList

/-- syntax_matcher.rs 105 -/
def vendorPrefixes : List Str := ["-webkit-", "-moz-", "-ms-", "-o-", "-khtml-", "-apple-"].map String.toList

/-- syntax_matcher.rs 108-112, `strip_vendor_prefix`. (`str::get` of a prefix counts bytes; the prefixes are ASCII, so it is the
same as comparing characters.) -/
def stripVendor (s : Str) : Option Str :=
  vendorPrefixes.findSome? fun p =>
    if s.length > p.length ∧ eqIgnoreCase (s.take p.length) p then some (s.drop p.length) else Option.none

/-- syntax_matcher.rs 1033-1043 -/
def numericTypes : List Str :=
  ["length", "percentage", "number", "integer", "time", "angle", "flex", "frequency", "resolution"].map String.toList

/-- syntax_matcher.rs 1050-1073 -/
def mathNames : List Str := ["calc", "calc-size", "min", "max", "clamp", "round", "mod", "rem", "abs", "sign", "pow", "sqrt", "hypot",
  "log", "exp", "sin", "cos", "tan", "asin", "acos", "atan", "atan2"].map String.toList

/-- syntax_matcher.rs 1048-1076, `is_math_function` -/
def isMath (name : Str) : Bool := mathNames.any (eqIgnoreCase ((stripVendor name).getD name))

/-- a unit among some, compared without regard to case -/
def unitIn (us : List String) (u : Str) : Bool := us.any fun x => eqIgnoreCase u x.toList

/-- syntax_matcher.rs 346-463: a built-in data type takes a value -/
def takesBuiltin (env : Env) (d : Str) (range : Range) (v : Value) : Bool :=
  (match v with
    | .function name _ => isMath name && numericTypes.contains d
    | _ => false) ||
  (if d = "percentage".toList then
    (match v with
      | .percentage n => range.contains n
      | _ => false)
  else if d = "angle".toList then
    (match v with
      | .zero => range.contains 0
      | .unit n u => range.contains n && unitIn ["deg", "grad", "rad", "turn"] u
      | _ => false)
  else if d = "length".toList then
    (match v with
      | .zero => range.contains 0
      | .unit n u => lengthUnits.contains u && range.contains n
      | _ => false)
  else if d = "time".toList then
    (match v with
      | .zero => range.contains 0
      | .unit n u => unitIn ["s", "ms"] u && range.contains n
      | _ => false)
  else if d = "flex".toList then
    (match v with
      | .zero => range.contains 0
      | .unit n u => unitIn ["fr"] u && range.contains n
      | _ => false)
  else if d = "number".toList then
    (match v with
      | .zero => range.contains 0
      | .number n => range.contains n
      | _ => false)
  else if d = "integer".toList then
    (match v with
      | .zero => range.contains 0
      | .number n => n.den == 1 && range.contains n
      | _ => false)
  else if d = "system-color".toList then
    (match v with
      | .string s => env.system s
      | _ => false)
  else if d = "named-color".toList then
    (match v with
      | .string s => env.named s
      | _ => false)
  else if d = "hex-color".toList then
    (match v with
      | .color _ _ _ _ => true
      | .string s => s.head? = some '#'
      | _ => false)
  else if d = "alpha()".toList then
    (match v with
      | .function name _ => eqIgnoreCase name "alpha".toList
      | _ => false)
  else if d = "custom-ident".toList ∨ d = "ident".toList then
    (match v with
      | .string s => decide (s ≠ ['/'])
      | _ => false)
  else if d = "dashed-ident".toList then
    (match v with
      | .string s => s.take 2 = ['-', '-']
      | _ => false)
  else
    (match v with
      | .comma => false
      | .string s => decide (s ≠ ['/'])
      | _ => true))

/-- syntax_matcher.rs 327-547, `match_component_single` without the functions that have arguments; `none` is the panic of 541 -/
def Leaf.takes (env : Env) (l : Leaf) (v : Value) : Option Bool :=
  match l with
  | .keyword kw => some (match v with
    | .none => eqIgnoreCase kw "none".toList
    | .string s => eqIgnoreCase s kw
    | _ => false)
  | .definition _ => some false
  | .builtin d range => some (takesBuiltin env d range v)
  | .inherit => some (match v with
    | .inherit => true
    | .string s => eqIgnoreCase s "inherit".toList
    | _ => false)
  | .initial => some (match v with
    | .initial => true
    | .string s => eqIgnoreCase s "initial".toList
    | _ => false)
  | .unset => some (match v with
    | .string s => eqIgnoreCase s "unset".toList
    | _ => false)
  | .unit lo hi us => some (match v with
    | .zero => true
    | .number n => decide (n = 0)
    | .unit n u => us.contains u && lo.all (fun x => decide (x ≤ n)) && hi.all (fun x => decide (n ≤ x))
    | _ => false)
  | .literal l => some (match v with
    | .string s => eqIgnoreCase s l
    | .comma => decide (l = [','])
    | _ => false)
  | .function name => some (match v with
    | .function c _ => eqIgnoreCase name c
    | _ => false)
  | .zero => some (match v with
    | .zero => true
    | _ => false)
  | .dimension n u => some (match v with
    | .unit n' u' => decide (n' = n ∧ u' = u)
    | _ => false)
  | .property _ => Option.none

/-- syntax_matcher.rs 8-15, `MatchResult`: no match, or what is left of the input; a panic; or the rounds have run out -/
inductive Res
  | fail
  | ok (rest : List Value)
  | panic
  | cut

/-- what a component does to an input -/
abbrev Matcher := List Value → Res

/-- syntax_matcher.rs 1093-1102, `Fulfillment` -/
inductive Fulfil
  | notYet | done | more | never
  deriving DecidableEq

/-- syntax_matcher.rs 1106-1121: the multiplier that counts -/
def primary (ms : List Mult) : Mult :=
  (ms.filter fun m => match m with
    | .bang | .csv _ _ => false
    | _ => true).head?.getD .once

/-- syntax_matcher.rs 1105-1149, `multiplier_fulfilled` -/
def fulfil (ms : List Mult) (cnt : Nat) : Fulfil :=
  match primary ms with
  | .once => if cnt = 0 then .notYet else if cnt = 1 then .done else .never
  | .star => .more
  | .plus => if cnt = 0 then .notYet else .more
  | .opt => if cnt = 0 then .more else if cnt = 1 then .done else .never
  | .between a b => if cnt < a then .notYet else if cnt = b then .done else if a ≤ cnt ∧ cnt < b then .more else .never
  | _ => .never

/-- syntax_matcher.rs 1083-1088, `is_omissible` -/
def omissible (ms : List Mult) : Bool := fulfil ms 0 = .done || fulfil ms 0 = .more

/-- syntax_matcher.rs 147-221: the loop of `match_component_inner`, with the rounds left, the number of matches so far, and the
input -/
def inner (ms : List Mult) (m : Matcher) : Nat → Nat → List Value → Res
  | 0, _, _ => .cut
  | n + 1, cnt, input =>
    if input.isEmpty then (if omissible ms then .ok [] else .fail)
    else
      match m input with
      | .ok r =>
        (match fulfil ms (cnt + 1) with
          | .notYet => inner ms m n (cnt + 1) r
          | .more => if r.isEmpty then .ok r else inner ms m n (cnt + 1) r
          | .done => .ok r
          | .never => .fail)
      | .fail =>
        (match fulfil ms cnt with
          | .more => .ok input
          | _ => .fail)
      | .panic => .panic
      | .cut => .cut

/-- syntax_matcher.rs 287-296: enough and not too many items? -/
def counted (a b cnt : Nat) (rest : List Value) : Res := if a ≤ cnt ∧ cnt ≤ b then .ok rest else .fail

/-- syntax_matcher.rs 248-285: the loop over a list separated by commas -/
def csvLoop (a b : Nat) (piece : Matcher) : Nat → Nat → List Value → Res
  | 0, _, _ => .cut
  | n + 1, cnt, input =>
    match piece input with
    | .ok r =>
      (match r with
        | .comma :: r' => if r'.isEmpty then .fail else csvLoop a b piece n (cnt + 1) r'
        | _ => counted a b (cnt + 1) r)
    | .fail => counted a b cnt input
    | .panic => .panic
    | .cut => .cut

/-- syntax_matcher.rs 239-245: the last `#` counts -/
def csvBounds (ms : List Mult) : Option (Nat × Nat) :=
  ms.foldl (fun acc m => match m with
    | .csv a b => some (a, b)
    | _ => acc) Option.none

/-- syntax_matcher.rs 226-297, `match_component` -/
def component (ms : List Mult) (m : Matcher) (n : Nat) (input : List Value) : Res :=
  match csvBounds ms with
  | Option.none => inner ms m n 0 input
  | some (a, b) => csvLoop a b (inner ms m n 0) n 0 input

/-- what a group needs of a component of it -/
structure Part where
  ms : List Mult
  comma : Bool
  run : Matcher

/-- syntax_matcher.rs 550-637, `match_group_exactly_one`: the first of those that leave least -/
def oneOf : List Part → Option (List Value) → Matcher
  | [], best, _ => (match best with
    | some r => .ok r
    | Option.none => .fail)
  | p :: ps, best, input =>
    if input.isEmpty then .fail
    else
      match p.run input with
      | .ok r => oneOf ps (match best with
        | some b => if r.length < b.length then some r else some b
        | Option.none => some r) input
      | .fail => oneOf ps best input
      | .panic => .panic
      | .cut => .cut

/-- The outcome of looking for a component that claims the front of the input: syntax_matcher.rs 739-747 and 911-927. -/
inductive Claim
  | nobody
  | claimed (rest : List Value) (others : List Part)
  | panic
  | cut

/-- One scan through the components that have not matched yet, in order. `need` is for `&&`: there a component that took nothing
has matched only if it is required (syntax_matcher.rs 915-920). -/
def scan (need : Bool) (input : List Value) : List Part → List Part → Claim
  | _, [] => .nobody
  | before, p :: ps =>
    match p.run input with
    | .ok r =>
      if !need || r.length < input.length || !omissible p.ms then .claimed r (before ++ ps) else scan need input (before ++ [p]) ps
    | .fail => scan need input (before ++ [p]) ps
    | .panic => .panic
    | .cut => .cut

/-- syntax_matcher.rs 728-748 and 900-928: scan again from the start after every match. The result has the input and the components
left over; the number is that of the components. -/
def pass (need : Bool) : Nat → List Part → List Value → Except Res (List Value × List Part)
  | 0, ps, input => .ok (input, ps)
  | k + 1, ps, input =>
    if input.isEmpty then .ok (input, ps)
    else
      match scan need input [] ps with
      | .nobody => .ok (input, ps)
      | .claimed r ps' => pass need k ps' r
      | .panic => .error .panic
      | .cut => .error .cut

/-- syntax_matcher.rs 719-759, `at_least_one_any_order_pass` -/
def oneAnyPass (ps : List Part) (input : List Value) : Res :=
  match pass false ps.length ps input with
  | .ok (rest, left) => if left.length = ps.length then .fail else .ok rest
  | .error e => e

/-- syntax_matcher.rs 891-946, `all_any_order_pass` -/
def allAnyPass (ps : List Part) (input : List Value) : Res :=
  match pass true ps.length ps input with
  | .ok (rest, left) => if left.all fun p => omissible p.ms then .ok rest else .fail
  | .error e => e

/-- syntax_matcher.rs 865-887, `best_any_order_attempt`, with the offsets still to be tried -/
def bestAttempt (attempt : Nat → Res) : List Nat → Option (List Value) → Res
  | [], best => (match best with
    | some r => .ok r
    | Option.none => .fail)
  | o :: os, best =>
    match attempt o with
    | .ok r =>
      if r.isEmpty then .ok r
      else bestAttempt attempt os (match best with
        | some b => if r.length < b.length then some r else some b
        | Option.none => some r)
    | .fail => bestAttempt attempt os best
    | .panic => .panic
    | .cut => .cut

/-- syntax_matcher.rs 872-874: the components in the order of an attempt -/
def rotated (ps : List Part) (offset : Nat) : List Part := ps.drop offset ++ ps.take offset

/-- syntax_matcher.rs 871 -/
def offsets (ps : List Part) : List Nat := List.range (max ps.length 1)

/-- syntax_matcher.rs 948-1029, `match_group_juxtaposition`; `prev` is `prev_consumed` -/
def juxtapose : List Part → Bool → Matcher
  | [], _, input => .ok input
  | p :: ps, prev, input =>
    match p.run input with
    | .ok r => juxtapose ps (decide (r.length < input.length)) r
    | .fail =>
      if p.comma then
        (if !prev then juxtapose ps prev input
         else if !ps.isEmpty && ps.all (fun q => omissible q.ms) then .ok input
         else .fail)
      else .fail
    | .panic => .panic
    | .cut => .cut

/-- syntax_matcher.rs 300-318, `match_component_group` -/
def Comb.run (comb : Comb) (ps : List Part) : Matcher :=
  match comb with
  | .juxtaposition => juxtapose ps true
  | .allAnyOrder => fun input => bestAttempt (fun o => allAnyPass (rotated ps o) input) (offsets ps) Option.none
  | .atLeastOneAnyOrder => fun input => bestAttempt (fun o => oneAnyPass (rotated ps o) input) (offsets ps) Option.none
  | .exactlyOne => oneOf ps Option.none

/-- syntax_matcher.rs 321-325 and 546: one value -/
def single (env : Env) (l : Leaf) : Matcher
  | [] => .fail
  | v :: r => (match l.takes env v with
    | some true => .ok r
    | some false => .fail
    | Option.none => .panic)

/-- syntax_matcher.rs 507-531: a function with its arguments -/
def call (name : Str) (args : Matcher) : Matcher
  | .function c vs :: r =>
    if eqIgnoreCase name c then
      (match args vs with
        | .ok [] => .ok r
        | .ok (_ :: _) => .fail
        | .fail => .fail
        | .panic => .panic
        | .cut => .cut)
    else .fail
  | _ => .fail

mutual
/-- syntax_matcher.rs 226-297 with 165-169, `match_component`; the number is how many rounds every loop may take -/
def Component.run (env : Env) (n : Nat) : Component → Matcher
  | .leaf l ms => component ms (single env l) n
  | .function name args ms => component ms (call name (args.run env n)) n
  | .group comb cs ms => component ms (comb.run (parts env n cs)) n

/-- the components of a group -/
def parts (env : Env) (n : Nat) : List Component → List Part
  | [] => []
  | c :: cs => ⟨c.ms, c.isComma, c.run env n⟩ :: parts env n cs
end

/-- syntax_matcher.rs 84-95, `is_css_wide_keyword` -/
def isWide : List Value → Bool
  | [.inherit] => true
  | [.initial] => true
  | [.string s] => ["inherit", "initial", "unset", "revert", "revert-layer"].any fun k => eqIgnoreCase s k.toList
  | _ => false

/-- syntax_matcher.rs 114-119, `is_vendor_prefixed_keyword` -/
def isVendor : List Value → Bool
  | [.string s] => (stripVendor s).isSome
  | _ => false

mutual
/-- syntax_matcher.rs 127-133 -/
def hasSubst : Value → Bool
  | .function name args => eqIgnoreCase name "var".toList || eqIgnoreCase name "env".toList || hasSubsts args
  | .list items => hasSubsts items
  | _ => false

/-- syntax_matcher.rs 126-134, `contains_substitution` -/
def hasSubsts : List Value → Bool
  | [] => false
  | v :: vs => hasSubst v || hasSubsts vs
end

/-- What `matches` says. -/
inductive Verdict
  | yes | no | panic | cut
  deriving DecidableEq

/-- syntax_matcher.rs 36-58, `CssSyntaxTree::matches` -/
def verdict (env : Env) (n : Nat) (tree : List Component) (input : List Value) : Verdict :=
  match tree with
  | [] => .no
  | c :: cs =>
    if isWide input || hasSubsts input || isVendor input then .yes
    else if !cs.isEmpty then .panic
    else
      match c.run env n input with
      | .ok [] => .yes
      | .ok (_ :: _) => .no
      | .fail => .no
      | .panic => .panic
      | .cut => .cut

end Verif.Grammar
