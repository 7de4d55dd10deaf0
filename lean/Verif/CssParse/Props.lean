import Verif.CssParse.Lemmas8
import Verif.CssParse.Lemmas9
import Verif.CssParse.Lemmas10
import Verif.CssParse.Lemmas11
import Verif.CssParse.Lemmas12
import Verif.CssParse.Same

/-!
# C109–C114: what the CSS parser does with a stylesheet

`parse env zero d ts` is what the parser gives for the tokens `ts` with `d` levels of stack: rules, an error, `deep` if the stack
runs out, `hang` if a loop does not end.
-/

namespace Verif.CssParse

open Verif.CssTok (Token)
open Verif.Select (Part Simple Comb Matcher AttrSel)

/-! ## Concrete cases -/

/-- a parser for the concrete cases: names in ASCII -/
def plainEnv (ignore : Bool) : Env := ⟨ignore, fun v => v.map lowerChar, id, fun _ => [], id, fun _ _ => []⟩

/-- the digit 0 -/
def isZero (v : Str) : Bool := v == ['0']

def name (v : String) : Token := .ident v.toList

/-- `b{x:y}` -/
def ruleB : List Token := [name "b", .lCurly, name "x", .colon, name "y", .rCurly]

/-- the rule it stands for -/
def meantB : Rule := ⟨[[.simple (.type "b".toList)]], [⟨"x".toList, .str "y".toList, false⟩]⟩

/-! ## C109 -/

/-- The parser ends: on no list of tokens, well-formed or not, does a loop go on for ever, however much stack there is. -/
theorem C109_parse_ends (env : Env) (zero : Str → Bool) (d : Nat) (ts : List Token) : parse env zero d ts ≠ .hang := by
  have h := parseTree_ends env d ts
  unfold parse
  cases e : parseTree env d ts with
  | ok o s =>
    cases o with
    | none => simp
    | some n =>
      cases n with
      | styleSheet l => cases h : collectRules env.num zero l <;> simp [h]
      | _ => simp
  | err s => simp
  | deep => simp
  | hang => exact absurd e h

theorem parse_deep {env : Env} {zero : Str → Bool} {d : Nat} {ts : List Token} :
    parse env zero d ts = .deep ↔ parseTree env d ts = .deep := by
  unfold parse
  cases e : parseTree env d ts with
  | ok o s =>
    cases o with
    | none => simp
    | some n =>
      cases n with
      | styleSheet l => cases h : collectRules env.num zero l <;> simp [h]
      | _ => simp
  | err s => simp
  | deep => simp
  | hang => simp

/-- As many levels of stack as there are tokens, and two, always suffice. -/
theorem C109_stack_suffices (env : Env) (zero : Str → Bool) (d : Nat) (ts : List Token) (h : ts.length + 2 ≤ d) :
    parse env zero d ts ≠ .deep := fun e => parseTree_shallow env d ts h (parse_deep.1 e)

example : parse (plainEnv true) isZero 8 ruleB ≠ .deep := C109_stack_suffices _ _ _ _ (by decide)

/-- If the stack suffices, more of it changes nothing. -/
theorem C109_stack_invisible (env : Env) (zero : Str → Bool) (d : Nat) (ts : List Token) (h : parse env zero d ts ≠ .deep) (n : Nat) :
    parse env zero (d + n) ts = parse env zero d ts := by
  unfold parse
  rw [parseTree_more env d ts (fun e => h (parse_deep.2 e)) n]

theorem ruleB_parsed : parse (plainEnv true) isZero 1 ruleB = .rules [meantB] := Outcome.gives_eq (by decide +kernel)

example (n : Nat) : parse (plainEnv true) isZero (1 + n) ruleB = .rules [meantB] :=
  (C109_stack_invisible _ _ 1 _ (fun h => by rw [ruleB_parsed] at h; cases h) n).trans ruleB_parsed

/-! ## C110 -/

/-- 64 levels of stack are not enough, nor is any other number: `@media (a b)(a b)…` goes down one level for each wrong feature, and the
parser's own limit does not count these. -/
theorem C110_stack_violated (env : Env) (hm : env.lower "media".toList = "media".toList) (zero : Str → Bool) (n : Nat) :
    ∃ ts : List Token, parse env zero n ts = .deep :=
  ⟨_, parse_deep.2 (parseTree_deep env hm n)⟩

example : (plainEnv true).lower "media".toList = "media".toList := by decide

/-- What can be said: 64 levels of stack and one for each opening parenthesis always suffice, however deep blocks, functions,
selectors and expressions are nested. -/
theorem C110_stack_partial (env : Env) (zero : Str → Bool) (d : Nat) (ts : List Token) (h : 64 + ts.count .lParen ≤ d) :
    parse env zero d ts ≠ .deep := fun e => parseTree_low env d ts h (parse_deep.1 e)

/-- `a{a{a{…`, however long, needs 64 levels -/
example (n : Nat) : parse (plainEnv true) isZero 64 (List.replicate n [name "a", .lCurly]).flatten ≠ .deep := by
  refine C110_stack_partial _ _ _ _ ?_
  have : (List.replicate n [name "a", .lCurly]).flatten.count .lParen = 0 := by
    rw [List.count_eq_zero]
    intro h
    rw [List.mem_flatten] at h
    obtain ⟨l, h1, h2⟩ := h
    rw [(List.mem_replicate.1 h1).2] at h2
    simp [name] at h2
  omega

/-! ## C111 -/

/-- A stylesheet of written rules is parsed to exactly the rules it was written from, in order, whether errors are ignored or not.
`Ok` leaves out a descendant combinator after an attribute selector (see `C114_attribute_violated`), custom properties, `calc()`,
`url("…")`, `progid` and `u+`; functional pseudo-classes, at-rules and nested rules are not among the written stylesheets. -/
theorem C111_rules_read_partial (env : Env) (zero : Str → Bool) (l : List WRule) (hl : l ≠ []) (n : Nat)
    (h : ∀ w ∈ l, w.Ok ∧ w.nestLe n ∧ w.nestLe 63) :
    parse env zero (n + 1) (sheetToks l) = .rules (l.map (WRule.rule zero)) :=
  parse_written env zero l hl n h

/-- `a.b > [c="d" i] , :e { m : rgb(0,f) !important ; n:5px }` but for the space before the comma -/
def sampleRule : WRule where
  selectors := ⟨⟨[.type "a".toList, .cls "b".toList], [(.child true true, [.attrIs "c".toList .equals "d".toList true true])]⟩,
    [(true, ⟨[.pseudo "e".toList], []⟩)]⟩
  beforeBlock := true
  inBlock := true
  init := [(⟨"m".toList, true, true, .cons (.func "rgb".toList
    (.cons (.number ['0']) false (.cons .comma false (.cons (.ident "f".toList) false .nil)))) true .nil, true, true⟩, true)]
  last := some ⟨"n".toList, false, false, .cons (.dimension ['5'] "px".toList) true .nil, false, false⟩
  after := true

theorem sampleRule_ok : sampleRule.Ok ∧ sampleRule.nestLe 63 := by
  refine ⟨⟨⟨⟨by simp [sampleRule], ?_⟩, ?_⟩, ?_⟩, ?_⟩
  · refine ⟨by simp, by simp, trivial⟩
  · intro x hx
    simp only [sampleRule, List.mem_singleton] at hx
    subst hx
    exact ⟨by simp, trivial⟩
  · intro d hd
    simp only [WRule.decls, sampleRule, List.map_cons, List.map_nil, Option.toList, List.cons_append, List.nil_append,
      List.mem_cons, List.not_mem_nil, or_false] at hd
    rcases hd with rfl | rfl
    · exact ⟨rfl, by simp, ⟨by decide, by decide, trivial, trivial, ⟨rfl, rfl⟩, trivial⟩, trivial⟩
    · exact ⟨rfl, by simp, trivial, trivial⟩
  · intro d hd
    simp only [WRule.decls, sampleRule, List.map_cons, List.map_nil, Option.toList, List.cons_append, List.nil_append,
      List.mem_cons, List.not_mem_nil, or_false] at hd
    rcases hd with rfl | rfl <;> decide

example : parse (plainEnv false) isZero 64 (sheetToks [sampleRule]) = .rules
    [⟨[[.simple (.type "a".toList), .simple (.cls "b".toList), .comb .child, .simple (.attr ⟨"c".toList, .equals, "d".toList, true⟩)],
       [.simple (.pseudo "e".toList)]],
      [⟨"m".toList, .function "rgb".toList [.zero, .comma, .str "f".toList], true⟩,
       ⟨"n".toList, .unit ['5'] "px".toList, false⟩]⟩] :=
  C111_rules_read_partial _ _ _ (by simp) 63 (by simpa using ⟨sampleRule_ok.1, sampleRule_ok.2⟩)

/-! ## C112 -/

/-- With errors ignored, a declaration without a colon or a value and a rule with a stray sign before its block are left out, each up
to its own end, and everything else is read as if they were not there. -/
theorem C112_mistakes_left_out_partial (env : Env) (hi : env.ignore = true) (zero : Str → Bool) (l : List WItem)
    (hl : l.filterMap WItem.rule? ≠ []) (n : Nat) (h : ∀ w ∈ l, w.Ok ∧ w.nestLe n ∧ w.nestLe 63) :
    parse env zero (n + 1) (itemsToks l) = .rules ((l.filterMap WItem.rule?).map (WRule2.rule zero)) :=
  parse_items env hi zero l hl n h

/-- With errors not ignored, a rule with a stray sign makes the whole stylesheet an error, whatever comes after it. -/
theorem C112_strict (env : Env) (hi : env.ignore = false) (zero : Str → Bool) (l : List WRule) (w : WWrongRule) (hw : w.Ok)
    (rest : List Token) (n : Nat) (h : ∀ w ∈ l, w.Ok ∧ w.nestLe n ∧ w.nestLe 63) :
    parse env zero (n + 1) (sheetToks l ++ w.toks ++ rest) = .error :=
  parse_strict env hi zero l w hw rest n h

/-- `a ! c{(;)}` -/
def sampleWrong : WWrongRule where
  selectors := some (⟨⟨[.type "a".toList], []⟩, []⟩, true)
  sign := '!'
  more := [.whitespace, name "c"]
  body := [.lParen, .semicolon, .rParen]
  after := true

theorem sampleWrong_ok : sampleWrong.Ok := by
  refine ⟨?_, by decide, ?_, ?_⟩
  · intro x hx
    cases hx
    exact ⟨⟨by simp, trivial⟩, by simp⟩
  · simp [sampleWrong, name, Plain]
  · exact .group (o := .lParen) (c := .rParen) (a := [.semicolon]) (l := []) trivial (.semicolon .nil) .nil

/-- `b{u v;w:;x:y}` -/
def sampleRule2 : WRule2 where
  selectors := ⟨⟨[.type "b".toList], []⟩, []⟩
  beforeBlock := false
  inBlock := false
  init := [(.wrong (.noColon "u".toList true (name "v") []), false), (.wrong (.noValue "w".toList false false), false)]
  last := some (.decl ⟨"x".toList, false, false, .cons (.ident "y".toList) false .nil, false, false⟩)
  after := false

theorem sampleRule2_ok : (WItem.rule sampleRule2).Ok ∧ (WItem.rule sampleRule2).nestLe 63 := by
  refine ⟨⟨⟨⟨by simp [sampleRule2], trivial⟩, by simp [sampleRule2]⟩, ?_⟩, ?_⟩
  · intro d hd
    simp only [WRule2.entries, sampleRule2, List.map_cons, List.map_nil, Option.toList, List.cons_append, List.nil_append,
      List.mem_cons, List.not_mem_nil, or_false] at hd
    rcases hd with rfl | rfl | rfl
    · exact ⟨trivial, by simp [name], by simp [name], by simp⟩
    · exact rfl
    · exact ⟨rfl, by simp, ⟨rfl, rfl⟩, trivial⟩
  · intro d hd
    simp only [WRule2.entries, sampleRule2, List.map_cons, List.map_nil, Option.toList, List.cons_append, List.nil_append,
      List.mem_cons, List.not_mem_nil, or_false] at hd
    rcases hd with rfl | rfl | rfl
    · trivial
    · trivial
    · exact Nat.zero_le _

/-- `a ! c{(;)} b{u v;w:;x:y}` is `b{x:y}` -/
example : parse (plainEnv true) isZero 64 (itemsToks [.wrong sampleWrong, .rule sampleRule2]) = .rules [meantB] :=
  C112_mistakes_left_out_partial _ rfl _ _ (by simp [WItem.rule?]) 63 (by
    intro w hw
    simp only [List.mem_cons, List.not_mem_nil, or_false] at hw
    rcases hw with rfl | rfl
    · exact ⟨sampleWrong_ok, trivial, trivial⟩
    · exact ⟨sampleRule2_ok.1, sampleRule2_ok.2, sampleRule2_ok.2⟩)

example : parse (plainEnv false) isZero 64 (sheetToks [sampleRule] ++ sampleWrong.toks ++ ruleB) = .error :=
  C112_strict _ rfl _ _ _ sampleWrong_ok _ 63 (by simpa using ⟨sampleRule_ok.1, sampleRule_ok.2⟩)

/-- `a{color}b{x:y}`: a declaration that is only a name swallows the brace after it, and the rule after it is lost -/
theorem C112_name_violated : parse (plainEnv true) isZero 64 ([name "a", .lCurly, name "color", .rCurly] ++ ruleB) =
    .rules [⟨[[.simple (.type "a".toList)]], []⟩] :=
  Outcome.gives_eq (by decide +kernel)

/-- `a{color;x:y}`: it swallows the semicolon, and the declaration after it is lost -/
theorem C112_semicolon_violated :
    parse (plainEnv true) isZero 64 [name "a", .lCurly, name "color", .semicolon, name "x", .colon, name "y", .rCurly] =
    .rules [⟨[[.simple (.type "a".toList)]], []⟩] :=
  Outcome.gives_eq (by decide +kernel)

/-- `a{.}b{x:y}`: so does a stray dot -/
theorem C112_dot_violated : parse (plainEnv true) isZero 64 ([name "a", .lCurly, .delim '.', .rCurly] ++ ruleB) =
    .rules [⟨[[.simple (.type "a".toList)]], []⟩] :=
  Outcome.gives_eq (by decide +kernel)

/-- `a:{}b{x:y}`: a colon before the block swallows the block's brace, and everything up to the end is skipped -/
theorem C112_colon_violated : parse (plainEnv true) isZero 64 ([name "a", .colon, .lCurly, .rCurly] ++ ruleB) = .error := Outcome.isError_eq (by decide +kernel)

/-- `b{x:y`: a rule that is not closed is lost, although the end of the stylesheet closes it -/
theorem C112_end_violated : parse (plainEnv true) isZero 64 ruleB.dropLast = .error := Outcome.isError_eq (by decide +kernel)

/-! ## C113 -/

/-- never an error -/
def Sure {α : Type} (p : P α) : Prop := ∀ s s', p s ≠ .err s'

theorem sure_bind {α β : Type} {p : P α} {f : α → P β} (hp : Sure p) (hf : ∀ x, Sure (f x)) : Sure (p >>= f) := by
  intro s s' e
  cases h : p s with
  | ok x s1 => rw [bind_ok h] at e; exact hf x _ _ e
  | err s1 => exact hp _ _ h
  | deep => rw [deep_bind h] at e; cases e
  | hang =>
    change (match p s with | .ok x s' => f x s' | .err s' => .err s' | .deep => .deep | .hang => .hang) = _ at e
    rw [h] at e
    cases e

theorem sure_pure {α : Type} (x : α) : Sure (pure x : P α) := fun _ _ e => by cases e

theorem sure_attempt {α : Type} (p : P α) : Sure (attempt p) := by
  intro s s' e
  unfold attempt at e
  cases h : p s <;> rw [h] at e <;> cases e

theorem sure_consume : Sure consume := by
  intro s s' e
  unfold consume at e
  split at e <;> cases e

theorem sure_reconsume : Sure reconsume := by
  intro s s' e
  unfold reconsume at e
  split at e <;> cases e

theorem sure_atEof : Sure atEof := by
  intro s s' e
  unfold atEof at e
  cases e

theorem sure_untilRuleEnd : Sure untilRuleEnd := by
  intro s s' e
  unfold untilRuleEnd at e
  cases e

theorem sure_rounds {σ β : Type} {body : σ → P (σ ⊕ β)} (h : ∀ x, Sure (body x)) : ∀ n x, Sure (rounds body n x)
  | 0, _ => fun _ _ e => by cases e
  | n + 1, x => by
    unfold rounds
    refine sure_bind (h x) fun y => ?_
    cases y with
    | inl y => exact sure_rounds h n y
    | inr b => exact sure_pure b

theorem sure_sheet (env : Env) (hi : env.ignore = true) (k : Rec) : Sure (sheet env k) := by
  have h1 : Sure (rule env k) := by
    unfold rule
    refine sure_bind (sure_attempt _) fun o => ?_
    cases o with
    | some n => exact sure_pure _
    | none =>
      simp only
      rw [if_pos hi]
      exact sure_bind sure_untilRuleEnd fun _ => sure_pure _
  have h2 : ∀ b, Sure (atRule env k b) := by
    intro b
    unfold atRule
    refine sure_bind (sure_attempt _) fun o => ?_
    cases o with
    | some n => exact sure_pure _
    | none =>
      simp only
      rw [if_pos hi]
      exact sure_bind sure_untilRuleEnd fun _ => sure_pure _
  have h3 : ∀ acc, Sure (sheetRound env k acc) := by
    intro acc
    unfold sheetRound
    refine sure_bind sure_atEof fun b => ?_
    split
    · exact sure_pure _
    · refine sure_bind sure_consume fun t => ?_
      split
      · exact sure_pure _
      · exact sure_pure _
      · exact sure_pure _
      · exact sure_pure _
      · exact sure_bind sure_reconsume fun _ => sure_bind (h2 _) fun _ => sure_pure _
      · exact sure_bind sure_reconsume fun _ => sure_bind h1 fun _ => sure_pure _
  unfold sheet
  refine sure_bind (fun s s' => sure_rounds h3 _ _ s s') fun l => ?_
  split <;> exact sure_pure _

/-- With errors ignored, reading a stylesheet into a tree is never an error, whatever the tokens are. What is missing: turning the
tree into rules can be one. -/
theorem C113_tree_partial (env : Env) (hi : env.ignore = true) (d : Nat) (ts : List Token) (s : PS) : parseTree env d ts ≠ .err s :=
  fun e => sure_sheet env hi (Rec.at env d) _ _ e

example : (plainEnv true).ignore = true := rfl

/-- an empty stylesheet is an error -/
theorem C113_empty_violated : parse (plainEnv true) isZero 64 [] = .error := Outcome.isError_eq (by decide +kernel)

/-- `5%{}b{x:y}`: a selector that only keyframes have makes the whole stylesheet an error -/
theorem C113_percentage_violated :
    parse (plainEnv true) isZero 64 ([.percentage ['5'], .lCurly, .rCurly] ++ ruleB) = .error := Outcome.isError_eq (by decide +kernel)

/-- `& {}b{x:y}`: so does a nesting selector outside a rule -/
theorem C113_nesting_violated :
    parse (plainEnv true) isZero 64 ([.delim '&', .whitespace, .lCurly, .rCurly] ++ ruleB) = .error := Outcome.isError_eq (by decide +kernel)

/-! ## C114 -/

/-- `a ,b{x:y}`: white space before a comma is read as a combinator with nothing after it -/
theorem C114_comma_violated : parse (plainEnv true) isZero 64 ([name "a", .whitespace, .comma] ++ ruleB) =
    .rules [⟨[[.simple (.type "a".toList), .comb .descendant], [.simple (.type "b".toList)]],
      [⟨"x".toList, .str "y".toList, false⟩]⟩] :=
  Outcome.gives_eq (by decide +kernel)

/-- `[a] b{x:y}`: white space after an attribute selector is not read as a combinator: the rule is that of `[a]b` -/
theorem C114_attribute_violated :
    parse (plainEnv true) isZero 64 ([.lBracket, name "a", .rBracket, .whitespace] ++ ruleB) =
    .rules [⟨[[.simple (.attr ⟨"a".toList, .none, [], false⟩), .simple (.type "b".toList)]],
      [⟨"x".toList, .str "y".toList, false⟩]⟩] :=
  Outcome.gives_eq (by decide +kernel)

/-- What can be said: two rules that differ only in white space around `>`, `+` and `~`, after a comma, around the block, in it, and
around the colons, semicolons and values are parsed to the same rules. -/
theorem C114_space_invisible_partial (env : Env) (zero : Str → Bool) (l m : List WRule) (hl : l ≠ []) (n : Nat)
    (h1 : ∀ w ∈ l, w.Ok ∧ w.nestLe n ∧ w.nestLe 63) (h2 : ∀ w ∈ m, w.Ok ∧ w.nestLe n ∧ w.nestLe 63)
    (h : l.map (WRule.rule zero) = m.map (WRule.rule zero)) :
    parse env zero (n + 1) (sheetToks l) = parse env zero (n + 1) (sheetToks m) := by
  have hm : m ≠ [] := by rintro rfl; exact hl (List.map_eq_nil_iff.1 h)
  rw [parse_written env zero l hl n h1, parse_written env zero m hm n h2, h]

/-- the same rule with other white space -/
example : WRule.rule isZero { sampleRule with beforeBlock := false, inBlock := false } = sampleRule.rule isZero := rfl

end Verif.CssParse
