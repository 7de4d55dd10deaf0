import Verif.Select.Model

/-!
# Model of the cascade

Files modelled (in /repo/crates/gosub_css3/src): `matcher/styling.rs:362-510` (declarations, winner),
`matcher/shorthands.rs:65-471` (shorthand expansion), `matcher/syntax_matcher.rs:60-222`, `550-637`, `948-1029`
(how a `{1,4}` value is matched and expanded), `system.rs:92-424`, `460-508` (collecting the declarations of a
node, custom properties), `functions/var.rs`.

Simplifications: numbers are `Int`s, colours are text; neither is computed with.  The grammar of a value is a
parameter: a list of tests, each taking one value.  Shorthands other than the one- to four-value ones are a
parameter that gives the longhands they set.
-/
namespace Verif.Cascade
open Verif Verif.Map Verif.Select

/-- `stylesheet.rs:403-416` -/
inductive Val
  | none | zero | initial | inherit | comma
  | color (c : Str)
  | num (n : Int)
  | pct (n : Int)
  | str (s : Str)
  | unit (n : Int) (u : Str)
  | func (name : Str) (args : List Val)
  | list (l : List Val)
  deriving Inhabited, Repr

/-- `to_slice`, `stylesheet.rs:527-532` and `system.rs:157-161` -/
def Val.slice : Val → List Val
  | .list l => l
  | v => [v]

/-- `system.rs:228-239` and `257-268`: a list of one value is that value -/
def Val.unwrap : Val → Val
  | .list [v] => v
  | v => v

/-- `from_vec`, `stylesheet.rs:518-524` -/
def Val.ofVec : List Val → Val
  | [] => .none
  | [v] => v
  | l => .list l

/-- `gosub_interface/src/css3.rs`: `CssOrigin` -/
inductive Origin
  | userAgent | user | author
  deriving DecidableEq, Repr

/-- `styling.rs:363-375` without the location -/
structure Decl where
  value : Val
  origin : Origin
  important : Bool
  spec : Spec3
  deriving Repr

/-- `styling.rs:379-403` -/
def Decl.priority (d : Decl) : Nat :=
  match d.origin, d.important with
  | .userAgent, true => 7
  | .userAgent, false => 1
  | .user, true => 6
  | .user, false => 2
  | .author, true => 5
  | .author, false => 3

/-- `styling.rs:420-426`: not greater -/
def Decl.le (d e : Decl) : Bool :=
  decide (d.priority < e.priority) || (decide (d.priority = e.priority) && d.spec.le e.spec)

/-- `Iterator::max`, which returns the last of equal elements: `styling.rs:493`, `shorthands.rs:419`, `439` -/
def maxLast : List Decl → Option Decl → Option Decl
  | [], acc => acc
  | d :: r, Option.none => maxLast r (some d)
  | d :: r, some m => maxLast r (some (if m.le d then d else m))

/-! ## Shorthand expansion -/

/-- `shorthands.rs:117-122` -/
structure Info where
  origin : Origin
  important : Bool
  spec : Spec3
  deriving DecidableEq, Repr

/-- `shorthands.rs:109-114`; the list of declarations kept for a name has always one element -/
structure FixList where
  list : List (Str × Decl)
  mults : List (Str × Nat)
  info : Option Info
  deriving Repr

/-- `shorthands.rs:344-350` -/
def FixList.new : FixList := ⟨[], [], Option.none⟩

/-- `shorthands.rs:364-382` -/
def FixList.declOf (fl : FixList) (v : Val) : Decl :=
  match fl.info with
  | some i => ⟨v, i.origin, i.important, i.spec⟩
  | Option.none => ⟨v, .author, false, ⟨0, 0, 0⟩⟩

/-- `shorthands.rs:384-403`, the loop -/
def insertList (name : Str) (d : Decl) : List (Str × Decl) → List (Str × Decl)
  | [] => [(name, d)]
  | (k, e) :: r => if k = name then (k, if e.le d then d else e) :: r else (k, e) :: insertList name d r

/-- `shorthands.rs:384-403` -/
def FixList.insert (fl : FixList) (name : Str) (v : Val) : FixList :=
  { fl with list := insertList name (fl.declOf v) fl.list }

/-- `shorthands.rs:465-467` -/
def FixList.insertAll (fl : FixList) (names : List Str) (v : Val) : FixList :=
  names.foldl (fun fl n => fl.insert n v) fl

/-- `shorthands.rs:360-362` -/
def FixList.reset (fl : FixList) (name : Str) : FixList := { fl with mults := del fl.mults name }

/-- `Multiplier::QuadMulti`, `shorthands.rs:87-94` -/
def quadNames (names : List Str) : Nat → Option (List Str)
  | 0 => some names
  | 1 => if 3 ≤ names.length then some ((names.drop 1).take 2) else Option.none
  | 2 => names.head?.map ([·])
  | 3 => names[1]?.map ([·])
  | _ => Option.none

/-- A one- to four-value shorthand: its name, the longhands in the order of the definition
(`definitions_properties.json`, `computed`; for corners `shorthands.rs:572-582`), the alternatives of the
grammar of one value, and whether the grammar is a group (`syntax_matcher.rs:165-169`). -/
structure Quad where
  name : Str
  order : List Str
  alts : List (Val → Bool)
  group : Bool

/-- `shorthands.rs:220-273` and `462-470`: a step that is completed with the value -/
def Quad.step (q : Quad) (v : Val) (fl : FixList) : FixList :=
  let n := (look fl.mults q.name).getD 0
  match quadNames q.order n with
  | Option.none => fl
  | some names => ({ fl with mults := put fl.mults q.name (n + 1) }).insertAll names v

/-- `syntax_matcher.rs:560-608` (alternatives) and `961-985` (a single component): every alternative that
matches completes a step; for the others the list is restored (`shorthands.rs:183-191`). -/
def Quad.stepAll (q : Quad) (v : Val) (fl : FixList) : FixList :=
  if q.group then q.alts.foldl (fun fl a => if a v then q.step v fl else fl) fl else fl

/-- some alternative matches: `syntax_matcher.rs:610-636` -/
def Quad.accepts (q : Quad) (v : Val) : Bool := q.alts.any (· v)

/-- `syntax_matcher.rs:147-221` with the multiplier `{1,4}` (`1138-1146`), and `74-75`; the number counts the
values matched so far -/
def Quad.loop (q : Quad) : Nat → List Val → FixList → Bool × FixList
  | _, [], fl => (false, fl)
  | n, v :: r, fl =>
    if !q.accepts v then (false, fl)
    else if r.isEmpty then (true, q.stepAll v fl)
    else if n + 1 = 4 then (false, q.stepAll v fl)
    else q.loop (n + 1) r (q.stepAll v fl)

/-- `syntax_matcher.rs:84-95` -/
def isWide : List Val → Bool
  | [.inherit] => true
  | [.initial] => true
  | [.str s] => ["inherit", "initial", "unset", "revert", "revert-layer"].any fun k => eqIgnoreCase s k.toList
  | _ => false

/-- `syntax_matcher.rs:108-119` -/
def isVendor : List Val → Bool
  | [.str s] => ["-webkit-", "-moz-", "-ms-", "-o-", "-khtml-", "-apple-"].any fun p =>
      decide (p.toList.length < s.length) && eqIgnoreCase (s.take p.toList.length) p.toList
  | _ => false

mutual
/-- one value of `contains_substitution`, `syntax_matcher.rs:126-134` -/
def hasSubst : Val → Bool
  | .func n args => eqIgnoreCase n "var".toList || eqIgnoreCase n "env".toList || hasSubsts args
  | .list l => hasSubsts l
  | _ => false

/-- `syntax_matcher.rs:126-134` -/
def hasSubsts : List Val → Bool
  | [] => false
  | v :: r => hasSubst v || hasSubsts r
end

/-- accepted without looking at the grammar, `syntax_matcher.rs:47`, `65` -/
def isFree (input : List Val) : Bool := isWide input || hasSubsts input || isVendor input

/-- A property definition, `property_definitions.rs:91-161`: not expanded, a one- to four-value shorthand, or
another shorthand, given by whether it accepts the values and the insertions it makes. -/
inductive Definition
  | plain (valid : List Val → Bool)
  | quad (q : Quad)
  | other (run : List Val → Bool × List (Str × Val))

/-- `is_shorthand`, `property_definitions.rs:158-160` -/
def Definition.isShorthand : Definition → Bool
  | .plain _ => false
  | _ => true

/-- `matches_and_shorthands`, `property_definitions.rs:147-155` and `syntax_matcher.rs:60-76` -/
def Definition.run (d : Definition) (input : List Val) (fl : FixList) : Bool × FixList :=
  if isFree input then (true, fl)
  else match d with
    | .plain valid => (valid input, fl)
    | .quad q => q.loop 0 input fl
    | .other run => ((run input).1, (run input).2.foldl (fun fl e => fl.insert e.1 e.2) fl)

/-- the definitions, `property_definitions.rs:228-230` -/
abbrev Defs := Str → Option Definition

/-- `shorthands.rs:410-424`, the loop; the second result is `had_shorthands` -/
def nestedFrom (defs : Defs) : List (Str × Decl) → FixList × Bool → FixList × Bool
  | [], s => s
  | (name, d) :: r, (fl, had) =>
    match defs name with
    | Option.none => nestedFrom defs r (fl, had)
    | some df =>
      if df.isShorthand then nestedFrom defs r ((df.run d.value.slice fl).2, true)
      else nestedFrom defs r (fl, had)

/-- `resolve_nested`, `shorthands.rs:405-431`; the number bounds the nesting of the definitions -/
def resolveNested (defs : Defs) : Nat → FixList → FixList
  | 0, fl => fl
  | f + 1, fl =>
    match nestedFrom defs fl.list (.new, false) with
    | (inner, had) => { fl with list := fl.list ++ (if had then resolveNested defs f inner else inner).list }

/-! ## Collecting declarations -/

/-- `stylesheet.rs`: `CssDeclaration` -/
structure Declaration where
  property : Str
  value : Val
  important : Bool

/-- `stylesheet.rs`: `CssRule`; a selector is the list of its comma-separated part lists -/
structure Rule where
  selectors : List (List (List Part))
  decls : List Declaration

/-- `stylesheet.rs`: `CssStylesheet` -/
structure Sheet where
  origin : Origin
  rules : List Rule

/-- a declaration that applies to the node, with the sheet's origin and the selector's specificity -/
structure Applied where
  origin : Origin
  spec : Spec3
  decl : Declaration

/-- the declarations of a rule for a node: `system.rs:115-123` -/
def Rule.applied (v : View) (x : Nat) (ps : Option Str) (o : Origin) (r : Rule) : List Applied :=
  r.selectors.flatMap fun s =>
    match matchSelector v x ps s with
    | (true, sp) => r.decls.map fun d => ⟨o, sp, d⟩
    | (false, _) => []

/-- `system.rs:113-123` -/
def applied (v : View) (x : Nat) (ps : Option Str) (sheets : List Sheet) : List Applied :=
  sheets.flatMap fun s => s.rules.flatMap (Rule.applied v x ps s.origin)

/-- `styling.rs:682-685` and the list of expanded longhands, `system.rs:98`, `111` -/
structure St where
  props : List (Str × List Decl)
  fix : FixList

/-- what is left out of `compute_properties`: the definitions, `resolve_functions` with
`normalize_vendor_prefixes` (`system.rs:129-132`), and the longhands recovered from a `background` that does not
match its grammar (`system.rs:188-219`) -/
structure Env where
  defs : Defs
  prep : Val → Val
  recover : Val → List (Str × Val)

/-- `system.rs:355-378` -/
def pushDecl (props : List (Str × List Decl)) (name : Str) (d : Decl) : List (Str × List Decl) :=
  put props name ((look props name).getD [] ++ [d])

/-- custom properties start with two dashes, `system.rs:126`, `415` -/
def isCustom (name : Str) : Bool := "--".toList.isPrefixOf name

/-- the declaration the engine records, `system.rs:363-370` -/
def Applied.decl' (a : Applied) (v : Val) : Decl := ⟨v, a.origin, a.decl.important, a.spec⟩

/-- the state of the expansion list before a declaration is matched, `system.rs:166-177` -/
def Applied.prepare (a : Applied) (fl : FixList) : FixList :=
  ({ fl with info := some ⟨a.origin, a.decl.important, a.spec⟩ } : FixList).reset a.decl.property

/-- the longhands of a `background` that does not match: `system.rs:188-223` -/
def recovered (e : Env) (a : Applied) (v : Val) : List (Str × Val) :=
  if a.decl.property = "background".toList then e.recover v else []

/-- `system.rs:123-281`: one declaration -/
def addDecl (e : Env) (s : St) (a : Applied) : St :=
  let p := a.decl.property
  let v := e.prep a.decl.value
  if isCustom p then s
  else if p = "content".toList then { s with props := pushDecl s.props p (a.decl' v) }
  else match e.defs p with
    | Option.none => { s with props := pushDecl s.props p (a.decl' v.unwrap) }
    | some df =>
      match df.run v.slice (a.prepare s.fix) with
      | (true, fl) => ⟨pushDecl s.props p (a.decl' v.unwrap), fl⟩
      | (false, fl) => ⟨(recovered e a v).foldl (fun ps r => pushDecl ps r.1 (a.decl' r.2)) s.props, fl⟩

/-- `shorthands.rs:437-458` -/
def applyFix (fl : FixList) (props : List (Str × List Decl)) : List (Str × List Decl) :=
  fl.list.foldl (fun ps e => pushDecl ps e.1 e.2) props

/-- `compute_properties`, `system.rs:92-291` (the node is not one of those left out of the rendering) -/
def compute (e : Env) (nest : Nat) (l : List Applied) : List (Str × List Decl) :=
  let s := l.foldl (addDecl e) ⟨[], .new⟩
  applyFix (resolveNested e.defs nest s.fix) s.props

/-- `find_cascaded_value`, `styling.rs:492-494` -/
def cascaded (props : List (Str × List Decl)) (name : Str) : Option Decl :=
  maxLast ((look props name).getD []) Option.none

/-! ## Custom properties -/

/-- `system.rs:407-421`: one node of the chain -/
def customOn (v : View) (sheets : List Sheet) (m : List (Str × Val)) (x : Nat) : List (Str × Val) :=
  (applied v x Option.none sheets).foldl
    (fun m a => if isCustom a.decl.property then put m a.decl.property a.decl.value else m) m

/-- `collect_custom_props`, `system.rs:392-424` -/
def customProps (v : View) (x : Nat) (sheets : List Sheet) : List (Str × Val) :=
  ((x :: v.anc x).reverse).foldl (customOn v sheets) []

/-- the text of a value used as a name, `stylesheet.rs:432`; only strings are given a meaning here -/
def nameOf : Val → Str
  | .str s => s
  | _ => []

/-- `resolve_var`, `functions/var.rs:4-19` -/
def resolveVar (args : List Val) (m : List (Str × Val)) : List Val :=
  match args with
  | [] => []
  | a :: r =>
    match look m (nameOf a) with
    | some v => [v]
    | Option.none => (r.head?.map ([·])).getD []

end Verif.Cascade
