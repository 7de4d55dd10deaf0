import Verif.Grammar.Model
import Mathlib.Data.List.Forall2

/-!
# What a value grammar means

CSS Values and Units Level 4, section 2: the values that a grammar allows, and the kinds of grammar that the theorems are about.
-/

namespace Verif.Grammar
open Verif

/-- a set of lists of values -/
abbrev Lang := List Value → Prop

/-- one after another -/
def Concat : List Lang → Lang
  | [], w => w = []
  | L :: Ls, w => ∃ a b, L a ∧ Concat Ls b ∧ w = a ++ b

/-- pieces with a separator between each two -/
inductive Joined (sep : Lang) : List (List Value) → Lang
  | none : Joined sep [] []
  | one (t : List Value) : Joined sep [t] t
  | more (t s t' : List Value) (ts : List (List Value)) (w : List Value) :
      sep s → Joined sep (t' :: ts) w → Joined sep (t :: t' :: ts) (t ++ s ++ w)

/-- §2.3: what a multiplier makes of the thing before it -/
def Mult.lang (m : Mult) (L : Lang) : Lang := fun w =>
  match m with
  | .once => L w
  | .opt => w = [] ∨ L w
  | .star => ∃ ps : List (List Value), (∀ p ∈ ps, L p) ∧ w = ps.flatten
  | .plus => ∃ ps : List (List Value), ps ≠ [] ∧ (∀ p ∈ ps, L p) ∧ w = ps.flatten
  | .between a b => ∃ ps : List (List Value), a ≤ ps.length ∧ ps.length ≤ b ∧ (∀ p ∈ ps, L p) ∧ w = ps.flatten
  | .bang => L w ∧ w ≠ []
  | .csv a b => ∃ ps : List (List Value), a ≤ ps.length ∧ ps.length ≤ b ∧ (∀ p ∈ ps, L p) ∧ Joined (· = [.comma]) ps w

/-- stacked multipliers apply from left to right -/
def multiplied (ms : List Mult) (L : Lang) : Lang := ms.foldl (fun L m => m.lang L) L

/-- the items of a juxtaposition between its commas; an item is marked if it is a comma -/
def segments : List (Bool × Lang) → List (List Lang)
  | [] => [[]]
  | (true, _) :: r => [] :: segments r
  | (false, L) :: r =>
    match segments r with
    | [] => [[L]]
    | s :: ss => (L :: s) :: ss

/-- the texts of the segments, without those whose items are all left out -/
def kept (segs : List (List Lang)) (ts : List (List Value)) : List (List Value) :=
  ((segs.zip ts).filter fun p => p.1.isEmpty || !p.2.isEmpty).map (·.2)

/-- §2.2: what a combinator makes of its items. A comma in a juxtaposition is written exactly where it separates two things: not
where everything on one side of it is left out. -/
def Comb.lang (comma : Lang) (comb : Comb) (items : List (Bool × Lang)) : Lang := fun w =>
  match comb with
  | .juxtaposition =>
    ∃ ts : List (List Value), List.Forall₂ Concat (segments items) ts ∧ Joined comma (kept (segments items) ts) w
  | .allAnyOrder => ∃ qs : List (Bool × Lang), qs.Perm items ∧ Concat (qs.map (·.2)) w
  | .atLeastOneAnyOrder =>
    ∃ qs others : List (Bool × Lang), qs ≠ [] ∧ (qs ++ others).Perm items ∧ Concat (qs.map (·.2)) w
  | .exactlyOne => ∃ i ∈ items, i.2 w

/-- the one-value language of a leaf, given what leaves stand for -/
def leafLang (leaf : Leaf → Value → Prop) (l : Leaf) : Lang := fun w => ∃ v, w = [v] ∧ leaf l v

/-- a comma of the grammar -/
def Component.sep : Component → Bool
  | .leaf (.literal l) ms => l = [','] && ms = [.once]
  | _ => false

mutual
/-- the values that a grammar allows, given what its leaves stand for -/
def Component.lang (leaf : Leaf → Value → Prop) : Component → Lang
  | .leaf l ms => multiplied ms (leafLang leaf l)
  | .function name args ms =>
    multiplied ms fun w => ∃ c vs, w = [.function c vs] ∧ lower c = lower name ∧ args.lang leaf vs
  | .group comb cs ms => multiplied ms (comb.lang (leafLang leaf (.literal [','])) (items leaf cs))

/-- the languages of the components of a group -/
def items (leaf : Leaf → Value → Prop) : List Component → List (Bool × Lang)
  | [] => []
  | c :: cs => (c.sep, c.lang leaf) :: items leaf cs
end

/-! ## What the engine does -/

/-- The engine accepts the value. -/
def Accepts (env : Env) (g : Component) (input : List Value) : Prop := ∃ n, verdict env n [g] input = .yes

/-- The engine, once it has as many rounds as it wants, gives this verdict. -/
def Answers (env : Env) (g : Component) (input : List Value) (v : Verdict) : Prop := ∃ N, ∀ n ≥ N, verdict env n [g] input = v

/-- The value is a substitution function, or has one inside. -/
inductive Substitutes : Value → Prop
  | here (name : Str) (args : List Value) : lower name ∈ ["var", "env"].map String.toList → Substitutes (.function name args)
  | argument (name : Str) (args : List Value) (v : Value) : v ∈ args → Substitutes v → Substitutes (.function name args)
  | item (items : List Value) (v : Value) : v ∈ items → Substitutes v → Substitutes (.list items)

/-- a CSS-wide keyword, CSS Cascade 5 §7.3 -/
def WideKeyword (v : Value) : Prop :=
  v = .inherit ∨ v = .initial ∨
  ∃ s, v = .string s ∧ lower s ∈ ["initial", "inherit", "unset", "revert", "revert-layer"].map String.toList

/-- a keyword with the prefix of a browser, and something after the prefix -/
def Prefixed (v : Value) : Prop :=
  ∃ s p rest, v = .string s ∧ p ∈ ["-apple-", "-khtml-", "-moz-", "-ms-", "-o-", "-webkit-"] ∧ rest ≠ [] ∧ lower s = p.toList ++ rest

/-- The values that are accepted whatever the grammar is: a CSS-wide keyword or a keyword with a vendor prefix alone, or anything
with a substitution function in it. -/
def AlwaysValid (input : List Value) : Prop :=
  (∃ v, input = [v] ∧ WideKeyword v) ∨ (∃ v ∈ input, Substitutes v) ∨ ∃ v, input = [v] ∧ Prefixed v

/-- A leaf stands for the single values that the engine takes for it. -/
def Stands (env : Env) (l : Leaf) (v : Value) : Prop := ∃ n, (Component.leaf l [.once]).run env n [v] = .ok []

/-! ## Kinds of grammar: nothing but what is there -/

/-- one multiplier, and neither `#` nor `!` -/
def Plain : List Mult → Prop
  | [.once] | [.opt] | [.star] | [.plus] | [.between _ _] => True
  | _ => False

/-- the multipliers that may stand on the last component: also `!`, `#` and `+#` -/
def Ends (ms : List Mult) : Prop :=
  Plain ms ∨ ms = [.bang] ∨ ∃ a b, ms = [.csv a b] ∨ ms = [.plus, .csv a b]

/-- Nothing beside a comma can be left out. -/
def Beside (leaf : Leaf → Value → Prop) : List Component → Prop
  | c :: d :: r =>
    (d.isComma = true → ¬ c.lang leaf []) ∧ (c.isComma = true → ¬ d.lang leaf []) ∧ Beside leaf (d :: r)
  | _ => True

/-- Commas are not multiplied, and nothing beside them can be left out. -/
def Commas (leaf : Leaf → Value → Prop) (cs : List Component) : Prop :=
  (∀ c ∈ cs, c.isComma = true → c.ms = [.once]) ∧ Beside leaf cs

mutual
/-- a grammar that may stand anywhere: no `#`, no `!`, one multiplier at a time, nothing to leave out beside a comma -/
def Firm (leaf : Leaf → Value → Prop) : Component → Prop
  | .leaf _ ms => Plain ms
  | .function _ args ms => Plain ms ∧ Closed leaf args
  | .group comb cs ms => Plain ms ∧ FirmAll leaf cs ∧ (comb = .juxtaposition → Commas leaf cs)

/-- a grammar with nothing after it: here `#` and `!` are allowed, too -/
def Closed (leaf : Leaf → Value → Prop) : Component → Prop
  | .leaf _ ms => Ends ms
  | .function _ args ms => Ends ms ∧ Closed leaf args
  | .group comb cs ms =>
    (comb = .juxtaposition → Commas leaf cs) ∧
    ((Ends ms ∧ FirmAll leaf cs) ∨
     ((ms = [.once] ∨ ms = [.opt] ∨ ms = [.bang]) ∧
       ((comb = .juxtaposition ∧ ClosedSeq leaf cs) ∨ (comb = .exactlyOne ∧ ClosedAll leaf cs))))

def FirmAll (leaf : Leaf → Value → Prop) : List Component → Prop
  | [] => True
  | c :: cs => Firm leaf c ∧ FirmAll leaf cs

def ClosedAll (leaf : Leaf → Value → Prop) : List Component → Prop
  | [] => True
  | c :: cs => Closed leaf c ∧ ClosedAll leaf cs

/-- all but the last may stand anywhere -/
def ClosedSeq (leaf : Leaf → Value → Prop) : List Component → Prop
  | [] => True
  | [c] => Closed leaf c
  | c :: cs => Firm leaf c ∧ ClosedSeq leaf cs
end

/-! ## Kinds of grammar: no endless loops -/

/-- a multiplier that can be satisfied by nothing -/
def Mult.lets : Mult → Bool
  | .opt | .star => true
  | .between a _ => a = 0
  | .csv a _ => a = 0
  | _ => false

mutual
/-- There may be nothing where the component stands. (`!` does not help.) -/
def Component.mayBeEmpty : Component → Bool
  | .leaf _ ms => ms.any Mult.lets
  | .function _ _ ms => ms.any Mult.lets
  | .group comb cs ms => ms.any Mult.lets || hollow comb cs

/-- There may be nothing in the group. -/
def hollow : Comb → List Component → Bool
  | .juxtaposition, cs => allHollow cs
  | .allAnyOrder, cs => allHollow cs
  | _, cs => anyHollow cs

def allHollow : List Component → Bool
  | [] => true
  | c :: cs => (c.mayBeEmpty || c.isComma) && allHollow cs

def anyHollow : List Component → Bool
  | [] => false
  | c :: cs => c.mayBeEmpty || anyHollow cs
end

mutual
/-- Whatever is repeated without limit needs at least one value each time. -/
def Component.busy : Component → Bool
  | .leaf _ _ => true
  | .function _ args _ => args.busy
  | .group comb cs ms => (!(ms.contains .star || ms.contains .plus) || !hollow comb cs) && allBusy cs

def allBusy : List Component → Bool
  | [] => true
  | c :: cs => c.busy && allBusy cs
end

/-- a `'name'` -/
def Leaf.isProperty : Leaf → Bool
  | .property _ => true
  | _ => false

mutual
/-- No `'name'` has been left in the grammar. -/
def Component.resolved : Component → Bool
  | .leaf l _ => !l.isProperty
  | .function _ args _ => args.resolved
  | .group _ cs _ => allResolved cs

def allResolved : List Component → Bool
  | [] => true
  | c :: cs => c.resolved && allResolved cs
end

/-! ## Kinds of grammar: the next value decides -/

/-- The value can begin what the language has. -/
def Begins (L : Lang) (v : Value) : Prop := ∃ w, L (v :: w)

/-- no value in both -/
def Apart (A B : Value → Prop) : Prop := ∀ v, A v → ¬ B v

/-- all of it are single values -/
def Single (L : Lang) : Prop := ∀ w, L w → ∃ v, w = [v]

/-- what may come after one item of a repetition -/
def Inside (ms : List Mult) (L : Lang) (F : Value → Prop) : Value → Prop := fun v =>
  match ms with
  | [.once] | [.opt] => F v
  | [.csv _ _] => F v ∨ v = .comma
  | _ => F v ∨ Begins L v

/-- It can be told from the next value whether the repetition goes on. -/
def Told (ms : List Mult) (L : Lang) (F : Value → Prop) : Prop :=
  match ms with
  | [.once] => True
  | [.opt] | [.star] | [.plus] => Apart (Begins L) F
  | [.between a b] => a ≤ b ∧ 0 < b ∧ (a < b → Apart (Begins L) F)
  | [.csv a b] => 0 < a ∧ a ≤ b ∧ ¬ F .comma
  | _ => False

/-- what may come next: the beginning of what follows or, where that can be left out, what comes after it -/
def Next (Ls : List Lang) (F : Value → Prop) : Value → Prop := fun v => Begins (Concat Ls) v ∨ (Concat Ls [] ∧ F v)

/-- no value begins two of them -/
def Distinct : List Lang → Prop
  | [] => True
  | L :: Ls => (∀ M ∈ Ls, Apart (Begins L) (Begins M)) ∧ Distinct Ls

/-- no value begins two of them, unless both are single values -/
def Choices : List Lang → Prop
  | [] => True
  | L :: Ls => (∀ M ∈ Ls, Apart (Begins L) (Begins M) ∨ (Single L ∧ Single M)) ∧ Choices Ls

mutual
/-- Wherever there is a choice in the grammar, the next value decides it, and nothing in it is impossible. `F` has the values that may
come after it. -/
def Clear (leaf : Leaf → Value → Prop) : Component → (Value → Prop) → Prop
  | .leaf l ms, F => l.isProperty = false ∧ Told ms (leafLang leaf l) F
  | .function name args ms, F =>
    Told ms (fun w => ∃ c vs, w = [.function c vs] ∧ lower c = lower name ∧ args.lang leaf vs) F ∧
    Clear leaf args (fun _ => False) ∧ Closed leaf args ∧ args.busy = true ∧ args.resolved = true
  | .group comb cs ms, F =>
    let L := comb.lang (leafLang leaf (.literal [','])) (items leaf cs)
    Told ms L F ∧ ¬ L [] ∧
    (match comb with
      | .juxtaposition => Commas leaf cs ∧ (∀ i ∈ items leaf cs, ∃ w, i.2 w) ∧ ClearSeq leaf cs (Inside ms L F)
      | .exactlyOne => Choices ((items leaf cs).map (·.2)) ∧ (∀ i ∈ items leaf cs, ¬ i.2 []) ∧ ClearAll leaf cs (Inside ms L F)
      | .atLeastOneAnyOrder =>
        Distinct ((items leaf cs).map (·.2)) ∧ (∀ i ∈ items leaf cs, ¬ i.2 [] ∧ Apart (Begins i.2) (Inside ms L F)) ∧
        ClearAny leaf [] cs (Inside ms L F)
      | .allAnyOrder =>
        Distinct ((items leaf cs).map (·.2)) ∧ (∀ i ∈ items leaf cs, (∃ w, i.2 w) ∧ (i.2 [] → Apart (Begins i.2) (Inside ms L F))) ∧
        ClearAny leaf [] cs (Inside ms L F))

/-- each before those that come after it -/
def ClearSeq (leaf : Leaf → Value → Prop) : List Component → (Value → Prop) → Prop
  | [], _ => True
  | c :: cs, F => Clear leaf c (Next ((items leaf cs).map (·.2)) F) ∧ ClearSeq leaf cs F

def ClearAll (leaf : Leaf → Value → Prop) : List Component → (Value → Prop) → Prop
  | [], _ => True
  | c :: cs, F => Clear leaf c F ∧ ClearAll leaf cs F

/-- each with any of the others after it -/
def ClearAny (leaf : Leaf → Value → Prop) : List Lang → List Component → (Value → Prop) → Prop
  | _, [], _ => True
  | before, c :: cs, F =>
    Clear leaf c (fun v => F v ∨ ∃ L ∈ before ++ (items leaf cs).map (·.2), Begins L v) ∧
    ClearAny leaf (before ++ [c.lang leaf]) cs F
end

/-! ## Data types of CSS Values and Units Level 4 -/

/-- §2.3.1, bracketed range notation: between the bounds, which belong to it -/
def InRange (r : Range) (x : Rat) : Prop :=
  (∀ n, r.min = .fin n → (n : Rat) ≤ x) ∧ (∀ n, r.max = .fin n → x ≤ (n : Rat)) ∧ r.min ≠ .inf ∧ r.max ≠ .negInf

/-- §6: the units of lengths -/
def lengthNames : List String :=
  ["em", "rem", "ex", "rex", "cap", "rcap", "ch", "rch", "ic", "ric", "lh", "rlh",
   "vw", "svw", "lvw", "dvw", "vh", "svh", "lvh", "dvh", "vi", "svi", "lvi", "dvi", "vb", "svb", "lvb", "dvb",
   "vmin", "svmin", "lvmin", "dvmin", "vmax", "svmax", "lvmax", "dvmax",
   "cqw", "cqh", "cqi", "cqb", "cqmin", "cqmax", "cm", "mm", "q", "in", "pt", "pc", "px"]

/-- The name of a unit, whatever its case. -/
def Named (names : List String) (u : Str) : Prop := ∃ s ∈ names, lower u = s.toList

/-- the numeric types -/
inductive NumType
  | number | integer | percentage | length | angle | time | flex
  deriving DecidableEq

/-- what the type is called between `<` and `>` -/
def NumType.name : NumType → Str
  | .number => "number".toList
  | .integer => "integer".toList
  | .percentage => "percentage".toList
  | .length => "length".toList
  | .angle => "angle".toList
  | .time => "time".toList
  | .flex => "flex".toList

/-- The value is a number: `0` is kept apart by the parser. -/
def IsNumber (v : Value) (x : Rat) : Prop := v = .number x ∨ (v = .zero ∧ x = 0)

/-- A value that is not a function is one of the type, and in the range: §5.2 integers, §5.3 numbers, §5.5 percentages, §6 lengths
(with a unit, or zero), §7 other dimensions (always with a unit), CSS Grid §7.2.4 `fr`. -/
def OfType (t : NumType) (r : Range) (v : Value) : Prop :=
  match t with
  | .number => ∃ x, IsNumber v x ∧ InRange r x
  | .integer => ∃ k : Int, IsNumber v k ∧ InRange r k
  | .percentage => ∃ x, v = .percentage x ∧ InRange r x
  | .length => (IsNumber v 0 ∧ InRange r 0) ∨ ∃ x u, v = .unit x u ∧ Named lengthNames u ∧ InRange r x
  | .angle => ∃ x u, v = .unit x u ∧ Named ["deg", "grad", "rad", "turn"] u ∧ InRange r x
  | .time => ∃ x u, v = .unit x u ∧ Named ["s", "ms"] u ∧ InRange r x
  | .flex => ∃ x u, v = .unit x u ∧ Named ["fr"] u ∧ InRange r x

/-- The parser has written `0` as `zero`. -/
def FromSource (v : Value) : Prop := v ≠ .number 0

/-- no function: those of `calc()` and its kin are taken for any numeric type -/
def NoFunction (v : Value) : Prop := ∀ name args, v ≠ .function name args

/-- the unit of a length as the standard writes it, without those of the small, large and dynamic viewport -/
def UsualUnit (u : Str) : Prop :=
  u ∈ (["em", "rem", "ex", "rex", "cap", "rcap", "ch", "rch", "ic", "ric", "lh", "rlh", "vw", "vh", "vi", "vb", "vmin", "vmax",
    "cqw", "cqh", "cqi", "cqb", "cqmin", "cqmax", "cm", "mm", "Q", "in", "pt", "pc", "px"].map String.toList)

end Verif.Grammar
