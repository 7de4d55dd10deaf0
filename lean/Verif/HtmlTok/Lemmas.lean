import Verif.HtmlTok.Spec
import Verif.CharRef.Props2
import Mathlib.Tactic.Common

/-!
# The engine's tokenizer follows the standard's: relation between the two machines
-/

namespace Verif.HtmlTok

open Standard (Machine Tag Doctype)

/-! ## characters -/

theorem mem_codes {l : List Char} {c : Char} : c ∈ l ↔ c.toNat ∈ l.map Char.toNat :=
  Verif.CharRef.mem_codes

theorem isWs_eq (c : Char) : isWs c = decide (c ∈ Standard.whitespace) := by
  simp [isWs, Standard.whitespace, Bool.or_assoc]

theorem isUpper_eq (c : Char) : isUpper c = decide (c ∈ Standard.asciiUpper) := by
  rw [Bool.eq_iff_iff, decide_eq_true_iff, mem_codes]
  rw [show Standard.asciiUpper.map Char.toNat = [65,66,67,68,69,70,71,72,73,74,75,76,77,78,79,80,81,82,83,84,85,86,87,88,89,90] from by
    decide +kernel]
  simp only [isUpper, Bool.and_eq_true, decide_eq_true_iff, List.mem_cons, List.not_mem_nil, or_false]
  omega

theorem isAlpha_eq (c : Char) : isAlpha c = decide (c ∈ Standard.asciiAlpha) := by
  rw [Bool.eq_iff_iff, decide_eq_true_iff, mem_codes]
  rw [show Standard.asciiAlpha.map Char.toNat = [65,66,67,68,69,70,71,72,73,74,75,76,77,78,79,80,81,82,83,84,85,86,87,88,89,90,
    97,98,99,100,101,102,103,104,105,106,107,108,109,110,111,112,113,114,115,116,117,118,119,120,121,122] from by
    decide +kernel]
  simp only [isAlpha, Bool.or_eq_true, Bool.and_eq_true, decide_eq_true_iff, List.mem_cons, List.not_mem_nil, or_false]
  omega

theorem toLower_eq (c : Char) : toLower c = Standard.lowercase c := by
  simp [toLower, Standard.lowercase, isUpper_eq]

theorem repl_eq : repl = Standard.replacement := rfl

theorem null_eq : Char.ofNat 0 = Standard.null := rfl

theorem ite_isWs {α : Type} (c : Char) (a b : α) :
    (if isWs c = true then a else b) = if c ∈ Standard.whitespace then a else b := by
  simp only [isWs_eq, decide_eq_true_eq]

theorem ite_isUpper {α : Type} (c : Char) (a b : α) :
    (if isUpper c = true then a else b) = if c ∈ Standard.asciiUpper then a else b := by
  simp only [isUpper_eq, decide_eq_true_eq]

theorem ite_isAlpha {α : Type} (c : Char) (a b : α) :
    (if isAlpha c = true then a else b) = if c ∈ Standard.asciiAlpha then a else b := by
  simp only [isAlpha_eq, decide_eq_true_eq]

theorem ite_isEnd {α : Type} (c : Char) (a b : α) :
    (if (isWs c || decide (c = '/') || decide (c = '>')) = true then a else b) =
      if c ∈ Standard.whitespace ∨ c = '/' ∨ c = '>' then a else b := by
  simp only [isWs_eq, Bool.or_eq_true, decide_eq_true_eq, or_assoc]

theorem ite_slashGt {α : Type} (c : Char) (a b : α) :
    (if (decide (c = '/') || decide (c = '>')) = true then a else b) = if c = '/' ∨ c = '>' then a else b := by
  simp only [Bool.or_eq_true, decide_eq_true_eq]

/-! ## attributes -/

theorem mem_firsts {n : Str} (l : List (Str × Str)) : n ∈ (Standard.firsts l).map (·.1) ↔ n ∈ l.map (·.1) := by
  induction l with
  | nil => rfl
  | cons a r ih =>
    simp only [Standard.firsts, List.map_cons, List.mem_cons]
    by_cases h : n = a.1
    · simp [h]
    · simp only [h, false_or]
      rw [← ih]
      simp only [List.mem_map, List.mem_filter, decide_eq_true_iff]
      constructor
      · rintro ⟨b, ⟨hb, _⟩, e⟩; exact ⟨b, hb, e⟩
      · rintro ⟨b, hb, e⟩; exact ⟨b, ⟨hb, by rw [e]; exact h⟩, e⟩

theorem firsts_concat (l : List (Str × Str)) (n v : Str) :
    Standard.firsts (l ++ [(n, v)]) = if n ∈ (Standard.firsts l).map (·.1) then Standard.firsts l else Standard.firsts l ++ [(n, v)] := by
  induction l with
  | nil => simp [Standard.firsts]
  | cons a r ih =>
    simp only [List.cons_append, Standard.firsts, ih, List.map_cons, List.mem_cons]
    by_cases h : n = a.1
    · subst h
      simp only [true_or, if_true]
      split
      · rfl
      · simp
    · simp only [h, false_or]
      have hm : n ∈ ((Standard.firsts r).filter fun b => b.1 ≠ a.1).map (·.1) ↔ n ∈ (Standard.firsts r).map (·.1) := by
        simp only [List.mem_map, List.mem_filter, decide_eq_true_iff]
        constructor
        · rintro ⟨b, ⟨hb, _⟩, e⟩; exact ⟨b, hb, e⟩
        · rintro ⟨b, hb, e⟩; exact ⟨b, ⟨hb, by rw [e]; exact h⟩, e⟩
      by_cases h2 : n ∈ (Standard.firsts r).map (·.1)
      · rw [if_pos h2, if_pos (hm.2 h2)]
      · rw [if_neg h2, if_neg (fun hx => h2 (hm.1 hx))]
        rw [List.filter_append]
        congr 2
        simp [h]

/-! ## words ahead -/

/-- no look-alikes of the words -/
abbrev Plain (env : Env) (s : Str) : Prop := NoLookalikes env s

theorem Plain.suffix {env : Env} {s t : Str} (h : Plain env s) (hs : t <:+ s) : Plain env t :=
  fun w hw u hu => h w hw u (hu.trans hs)

theorem Plain.tail {env : Env} {c : Char} {s : Str} (h : Plain env (c :: s)) : Plain env s :=
  Plain.suffix h (List.suffix_cons c s)

theorem Plain.drop {env : Env} {s : Str} (h : Plain env s) (n : Nat) : Plain env (s.drop n) :=
  Plain.suffix h (List.drop_suffix n s)

theorem upper_lower : ∀ n < 128, ∀ k ∈ Standard.asciiUpper,
    ((if 97 ≤ (Char.ofNat n).toNat && (Char.ofNat n).toNat ≤ 122 then Char.ofNat ((Char.ofNat n).toNat - 32) else Char.ofNat n) = k ↔
      Standard.lowercase (Char.ofNat n) = Standard.lowercase k) := by decide +kernel

theorem lowercase_ascii : ∀ k ∈ Standard.asciiUpper, (Standard.lowercase k).toNat < 128 := by decide +kernel
theorem upper_ascii : ∀ k ∈ Standard.asciiUpper, k.toNat < 128 ∧ k ≠ Char.ofNat 0 := by decide +kernel

theorem lowercase_big {c : Char} (h : 128 ≤ c.toNat) : Standard.lowercase c = c := by
  rw [Standard.lowercase, if_neg]
  intro hc
  have := (upper_ascii c hc).1
  omega

theorem take_flatMap {env : Env} (s : Str) : ∀ (kw : Str), (∀ k ∈ kw, k ∈ Standard.asciiUpper) →
    (s.take kw.length).map Standard.lowercase = kw.map Standard.lowercase → (s.take kw.length).flatMap env.up = kw := by
  induction s with
  | nil =>
    intro kw hk h
    cases kw with
    | nil => rfl
    | cons k kw => simp at h
  | cons c s ih =>
    intro kw hk h
    cases kw with
    | nil => rfl
    | cons k kw =>
      rw [List.length_cons, List.take_succ_cons, List.map_cons, List.map_cons, List.cons.injEq] at h
      have ih' := ih kw (fun k' hk' => hk k' (by simp [hk'])) h.2
      rw [List.length_cons, List.take_succ_cons, List.flatMap_cons, ih']
      by_cases hc : c.toNat < 128
      · have hu : env.up c =
            [if 97 ≤ c.toNat && c.toNat ≤ 122 then Char.ofNat (c.toNat - 32) else c] := by
          rw [Env.up, if_pos hc]; split <;> rfl
        have hul := upper_lower c.toNat hc k (hk k (by simp))
        rw [Char.ofNat_toNat] at hul
        rw [hu, List.cons_append, List.nil_append, List.cons.injEq, hul]
        exact ⟨h.1, rfl⟩
      · exfalso
        have hb : 128 ≤ c.toNat := by omega
        have h1 := h.1
        rw [lowercase_big hb] at h1
        have := lowercase_ascii k (hk k (by simp))
        rw [← h1] at this
        omega

theorem slice_flatMap {env : Env} {s kw : Str} (h0 : Char.ofNat 0 ∉ kw) (h : (slice kw.length s).flatMap env.up = kw) :
    (s.take kw.length).flatMap env.up = kw := by
  by_cases hl : kw.length ≤ s.length
  · have : kw.length - s.length = 0 := by omega
    rw [slice, this] at h
    simpa using h
  · exfalso
    apply h0
    rw [← h, List.mem_flatMap]
    refine ⟨Char.ofNat 0, ?_, ?_⟩
    · rw [slice, List.mem_append]
      right
      rw [List.mem_replicate]
      exact ⟨by omega, rfl⟩
    · have : env.up (Char.ofNat 0) = [Char.ofNat 0] := rfl
      simp [this]

theorem words_upper : ∀ w ∈ words, ∀ k ∈ w, k ∈ Standard.asciiUpper := by decide +kernel

theorem ahead_eq {env : Env} {s : Str} (hs : Plain env s) (kw : Str) (hk : kw ∈ words) :
    env.ahead kw s = decide (Standard.startsWith kw s) := by
  rw [Bool.eq_iff_iff, decide_eq_true_iff, Env.ahead, decide_eq_true_iff]
  have h0 : Char.ofNat 0 ∉ kw := fun h => (upper_ascii _ (words_upper kw hk _ h)).2 rfl
  constructor
  · exact fun h => hs kw hk s (List.suffix_refl s) (slice_flatMap h0 h)
  · intro h
    have ht := take_flatMap (env := env) s kw (words_upper kw hk) h
    have hl : kw.length ≤ s.length := by
      have := congrArg List.length h
      simp only [List.length_map, List.length_take] at this
      omega
    have : kw.length - s.length = 0 := by omega
    rw [slice, this]
    simpa using ht

theorem slice_eq_take {kw s : Str} (h0 : Char.ofNat 0 ∉ kw) : slice kw.length s = kw ↔ s.take kw.length = kw := by
  rw [slice]
  by_cases h : kw.length ≤ s.length
  · have : kw.length - s.length = 0 := by omega
    simp [this]
  · constructor
    · intro e
      exfalso
      apply h0
      rw [← e]
      apply List.mem_append_right
      rw [List.mem_replicate]
      exact ⟨by omega, rfl⟩
    · intro e
      have := congrArg List.length e
      rw [List.length_take] at this
      omega

/-! ## the relation -/

/-- the standard's name of a state -/
def img : State → Standard.State
  | .afterAttributeName => .afterAttributeName | .afterAttributeValueQuoted => .afterAttributeValueQuoted
  | .afterDoctypeName => .afterDoctypeName | .afterDoctypePublicIdentifier => .afterDoctypePublicIdentifier
  | .afterDoctypePublicKeyword => .afterDoctypePublicKeyword | .afterDoctypeSystemIdentifier => .afterDoctypeSystemIdentifier
  | .afterDoctypeSystemKeyword => .afterDoctypeSystemKeyword | .attributeName => .attributeName
  | .attributeValueDoubleQuoted => .attributeValueDoubleQuoted | .attributeValueSingleQuoted => .attributeValueSingleQuoted
  | .attributeValueUnquoted => .attributeValueUnquoted | .beforeAttributeName => .beforeAttributeName
  | .beforeAttributeValue => .beforeAttributeValue | .beforeDoctypeName => .beforeDoctypeName
  | .beforeDoctypePublicIdentifier => .beforeDoctypePublicIdentifier
  | .beforeDoctypeSystemIdentifier => .beforeDoctypeSystemIdentifier
  | .betweenDoctypePublicAndSystemIdentifiers => .betweenDoctypePublicAndSystemIdentifiers
  | .bogusComment => .bogusComment | .bogusDoctype => .bogusDoctype | .cdataSection => .cdataSection
  | .cdataSectionBracket => .cdataSectionBracket | .cdataSectionEnd => .cdataSectionEnd
  | .characterReferenceInAttributeValue => .characterReference | .characterReferenceInData => .characterReference
  | .characterReferenceInRcData => .characterReference | .comment => .comment | .commentEnd => .commentEnd
  | .commentEndBang => .commentEndBang | .commentEndDash => .commentEndDash | .commentLessThanSign => .commentLessThanSign
  | .commentLessThanSignBang => .commentLessThanSignBang | .commentLessThanSignBangDash => .commentLessThanSignBangDash
  | .commentLessThanSignBangDashDash => .commentLessThanSignBangDashDash | .commentStart => .commentStart
  | .commentStartDash => .commentStartDash | .data => .data | .doctype => .doctype | .doctypeName => .doctypeName
  | .doctypePublicIdentifierDoubleQuoted => .doctypePublicIdentifierDoubleQuoted
  | .doctypePublicIdentifierSingleQuoted => .doctypePublicIdentifierSingleQuoted
  | .doctypeSystemIdentifierDoubleQuoted => .doctypeSystemIdentifierDoubleQuoted
  | .doctypeSystemIdentifierSingleQuoted => .doctypeSystemIdentifierSingleQuoted | .endTagOpen => .endTagOpen
  | .markupDeclarationOpen => .markupDeclarationOpen | .plaintext => .plaintext | .rawtext => .rawtext
  | .rawtextEndTagName => .rawtextEndTagName | .rawtextEndTagOpen => .rawtextEndTagOpen
  | .rawtextLessThanSign => .rawtextLessThanSign | .rcdata => .rcdata | .rcdataEndTagName => .rcdataEndTagName
  | .rcdataEndTagOpen => .rcdataEndTagOpen | .rcdataLessThanSign => .rcdataLessThanSign | .scriptData => .scriptData
  | .scriptDataDoubleEscaped => .scriptDataDoubleEscaped | .scriptDataDoubleEscapedDash => .scriptDataDoubleEscapedDash
  | .scriptDataDoubleEscapedDashDash => .scriptDataDoubleEscapedDashDash
  | .scriptDataDoubleEscapedLessThanSign => .scriptDataDoubleEscapedLessThanSign
  | .scriptDataDoubleEscapeEnd => .scriptDataDoubleEscapeEnd | .scriptDataDoubleEscapeStart => .scriptDataDoubleEscapeStart
  | .scriptDataEndTagName => .scriptDataEndTagName | .scriptDataEndTagOpen => .scriptDataEndTagOpen
  | .scriptDataEscaped => .scriptDataEscaped | .scriptDataEscapedDash => .scriptDataEscapedDash
  | .scriptDataEscapedDashDash => .scriptDataEscapedDashDash | .scriptDataEscapedEndTagName => .scriptDataEscapedEndTagName
  | .scriptDataEscapedEndTagOpen => .scriptDataEscapedEndTagOpen
  | .scriptDataEscapedLessThanSign => .scriptDataEscapedLessThanSign | .scriptDataEscapeStart => .scriptDataEscapeStart
  | .scriptDataEscapeStartDash => .scriptDataEscapeStartDash | .scriptDataLessThanSign => .scriptDataLessThanSign
  | .selfClosingStart => .selfClosingStartTag | .tagName => .tagName | .tagOpen => .tagOpen

/-- what the two machines must agree on in a state, beyond the input and the output -/
inductive Kind
  | plain | plainRef | raw | rawRef | rawBuf | rawName | tagName | before | name | afterName | value | comment | doctype | dead

def kind : State → Kind
  | .characterReferenceInAttributeValue => .dead
  | .characterReferenceInData => .plainRef
  | .characterReferenceInRcData => .rawRef
  | .rcdata | .rcdataLessThanSign | .rawtext | .rawtextLessThanSign | .scriptData | .scriptDataLessThanSign
  | .scriptDataEscapeStart | .scriptDataEscapeStartDash | .scriptDataEscaped | .scriptDataEscapedDash
  | .scriptDataEscapedDashDash | .scriptDataEscapedLessThanSign | .scriptDataDoubleEscaped | .scriptDataDoubleEscapedDash
  | .scriptDataDoubleEscapedDashDash | .scriptDataDoubleEscapedLessThanSign => .raw
  | .rcdataEndTagOpen | .rawtextEndTagOpen | .scriptDataEndTagOpen | .scriptDataEscapedEndTagOpen
  | .scriptDataDoubleEscapeStart | .scriptDataDoubleEscapeEnd => .rawBuf
  | .rcdataEndTagName | .rawtextEndTagName | .scriptDataEndTagName | .scriptDataEscapedEndTagName => .rawName
  | .tagName => .tagName
  | .beforeAttributeName | .afterAttributeValueQuoted | .selfClosingStart => .before
  | .attributeName => .name
  | .afterAttributeName => .afterName
  | .beforeAttributeValue | .attributeValueDoubleQuoted | .attributeValueSingleQuoted | .attributeValueUnquoted => .value
  | .bogusComment | .comment | .commentEnd | .commentEndBang | .commentEndDash | .commentLessThanSign
  | .commentLessThanSignBang | .commentLessThanSignBangDash | .commentLessThanSignBangDashDash | .commentStart
  | .commentStartDash => .comment
  | .doctypeName | .afterDoctypeName | .afterDoctypePublicKeyword | .beforeDoctypePublicIdentifier
  | .doctypePublicIdentifierDoubleQuoted | .doctypePublicIdentifierSingleQuoted | .afterDoctypePublicIdentifier
  | .betweenDoctypePublicAndSystemIdentifiers | .afterDoctypeSystemKeyword | .beforeDoctypeSystemIdentifier
  | .doctypeSystemIdentifierDoubleQuoted | .doctypeSystemIdentifierSingleQuoted | .afterDoctypeSystemIdentifier
  | .bogusDoctype => .doctype
  | _ => .plain

/-- the tokenizer holds no attribute -/
def Clean (t : Tok) : Prop := t.attrName = [] ∧ t.attrValue = [] ∧ t.attrs = []

/-- the engine's token for a tag without attributes -/
def tagToken (isEnd : Bool) (n : Str) : Token := if isEnd then .endTag n else .startTag n false []

/-- the tag in the making is the same, attributes apart -/
def SameTag (t : Tok) (m : Machine) : Prop :=
  t.cur = some (tagToken m.tag.isEnd m.tag.name) ∧ m.tag.selfClosing = false

/-- the attributes are the same: those stored are the first ones of `pre`, and the one in the making (if it has a name) comes
last -/
def Pend (t : Tok) (m : Machine) : Prop :=
  ∃ pre, Standard.firsts pre = t.attrs ∧
    ((t.attrName = [] ∧ t.attrValue = [] ∧ m.tag.attrs = pre) ∨
     (t.attrName ≠ [] ∧ m.tag.attrs = pre ++ [(t.attrName, t.attrValue)]))

/-- an attribute with a name is in the making -/
def Named (t : Tok) (m : Machine) : Prop :=
  ∃ pre, Standard.firsts pre = t.attrs ∧ t.attrName ≠ [] ∧ m.tag.attrs = pre ++ [(t.attrName, t.attrValue)]

/-- the attribute's name is about to start -/
def Fresh (t : Tok) (m : Machine) : Prop :=
  ∃ pre, Standard.firsts pre = t.attrs ∧ t.attrName = [] ∧ t.attrValue = [] ∧ m.tag.attrs = pre ++ [([], [])] ∧
    ∃ c r, t.rest = c :: r ∧ c ∉ Standard.whitespace ∧ c ≠ '/' ∧ c ≠ '>' ∧ c ≠ '='

def KindRel (t : Tok) (m : Machine) : Kind → Prop
  | .plain => Clean t
  | .plainRef => Clean t ∧ m.ret = .data
  | .raw => Clean t ∧ m.lastStart = t.lastStart
  | .rawRef => Clean t ∧ m.lastStart = t.lastStart ∧ m.ret = .rcdata
  | .rawBuf => Clean t ∧ m.lastStart = t.lastStart ∧ m.buffer = t.tmp
  | .rawName => Clean t ∧ m.lastStart = t.lastStart ∧ m.buffer = t.tmp ∧ ∃ n, t.cur = some (.endTag n) ∧ m.tag = ⟨true, n, false, []⟩
  | .tagName => Clean t ∧ SameTag t m ∧ m.tag.attrs = []
  | .before => SameTag t m ∧ Pend t m
  | .name => SameTag t m ∧ (Named t m ∨ Fresh t m)
  | .afterName => SameTag t m ∧ (Named t m ∨ Pend t m ∧ ∀ c, t.rest.head? = some c → c = '/' ∨ c = '>')
  | .value => SameTag t m ∧ Named t m
  | .comment => Clean t ∧ t.cur = some (.comment m.comment)
  | .doctype => Clean t ∧ m.doctype.name ≠ none ∧
      t.cur = some (.doctype m.doctype.name m.doctype.quirks m.doctype.pub m.doctype.sys)
  | .dead => False

/-- Both machines are at work, in state `s`. -/
structure Going (env : Env) (s : State) (t : Tok) (m : Machine) : Prop where
  input : m.input = t.rest
  chars : m.chars = t.consumed
  state : m.state = img s
  going : m.stopped = false
  unflagged : m.endTagWithAttributes = false
  plain : Plain env t.rest
  rel : KindRel t m (kind s)

/-- the tokens got and the state once the queue has been handed out -/
def settle (p : Parser) (got : List Token) : List Token → State → List Token × State
  | [], s => (got, s)
  | k :: q, s => settle p (got ++ [k]) q (afterToken p (got ++ [k]) s k)

/-- the engine's tokenizer and the standard's stand at the same point -/
inductive Rel (env : Env) (p : Parser) (got : List Token) (t : Tok) (m : Machine) : Prop
  | going : m.out = (settle p got t.queue t.state).1 → Going env (settle p got t.queue t.state).2 t m → Rel env p got t m
  | ending : m.stopped = true → (settle p got t.queue t.state).2 = .data → t.rest = [] →
      m.out = (settle p got t.queue t.state).1 ++ (if t.consumed = [] then [] else [.text t.consumed]) ++ [.eof] → Rel env p got t m
  | ended : m.stopped = true → m.out = (settle p got t.queue t.state).1 → m.out.getLast? = some .eof → Rel env p got t m
  | flagged : m.endTagWithAttributes = true → m.out = (settle p got t.queue t.state).1 → Rel env p got t m

/-- the text token put before another token -/
def flushed (s : Str) : List Token := if s = [] then [] else [.text s]

theorem settle_emit (p : Parser) (got : List Token) (s : Str) (k : Token) (st : State) :
    settle p got ((if s = [] then [] else [.text s]) ++ [k]) st =
      (got ++ (if s = [] then [] else [.text s]) ++ [k],
        afterToken p (got ++ (if s = [] then [] else [.text s]) ++ [k]) st k) := by
  by_cases h : s = [] <;> simp [h, settle, afterToken]

theorem dropSemi_suffix (s : Str) : CharRef.dropSemi s <:+ s := by
  unfold CharRef.dropSemi
  split
  · exact List.suffix_cons _ _
  · exact List.suffix_refl _

theorem ref_suffix {T : List (Str × Str)} {attr : Bool} {text out r : Str} (h : CharRef.Ref T attr text out r) : r <:+ text := by
  cases h with
  | @decimal ds r => exact (dropSemi_suffix r).trans ⟨'#' :: ds, rfl⟩
  | @hexadecimal x ds r => exact (dropSemi_suffix r).trans ⟨'#' :: x :: ds, rfl⟩
  | noDigits => exact List.suffix_cons _ _
  | noHexDigits => exact (List.suffix_cons _ _).trans (List.suffix_cons _ _)
  | named => exact List.suffix_append _ _
  | exempt => exact List.suffix_append _ _
  | unknown => exact List.suffix_append _ _
  | literal => exact List.suffix_refl _

theorem Plain.ref {env : Env} {T : List (Str × Str)} {attr : Bool} {text out r : Str} (hp : Plain env text)
    (h : CharRef.Ref T attr text out r) : Plain env r := Plain.suffix hp (ref_suffix h)

/-- a token other than a start tag is emitted and the machines are back in the data state -/
theorem rel_emit {env : Env} {p : Parser} {out : List Token} {s : Str} {t : Tok} {m : Machine} {k : Token}
    (hk : afterToken p (out ++ (if s = [] then [] else [.text s]) ++ [k]) .data k = .data)
    (hq : t.queue = [] ++ (if s = [] then [] else [.text s]) ++ [k]) (hs : t.state = .data)
    (ho : m.out = out ++ (if s = [] then [] else [.text s]) ++ [k]) (hi : m.input = t.rest) (hc : m.chars = t.consumed)
    (hst : m.state = .data) (hg : m.stopped = false) (hu : m.endTagWithAttributes = false) (hp : Plain env t.rest)
    (h1 : t.attrName = []) (h2 : t.attrValue = []) (h3 : t.attrs = []) : Rel env p out t m := by
  have e := settle_emit p out s k .data
  rw [hk] at e
  rw [List.nil_append] at hq
  refine .going ?_ ⟨hi, hc, ?_, hg, hu, hp, ?_⟩
  · rw [hq, hs, e, ho]
  · rw [hq, hs, e, hst]; rfl
  · rw [hq, hs, e]; exact ⟨h1, h2, h3⟩

/-- a start tag is emitted; the parser may change the state -/
theorem rel_start {env : Env} {p : Parser} {out : List Token} {s n : Str} {sc : Bool} {as : List (Str × Str)} {t : Tok}
    {m : Machine} (hq : t.queue = [] ++ (if s = [] then [] else [.text s]) ++ [.startTag n sc as]) (hs : t.state = .data)
    (ho : m.out = out ++ (if s = [] then [] else [.text s]) ++ [.startTag n sc as]) (hi : m.input = t.rest)
    (hc : m.chars = t.consumed) (hst : m.state = (p.switch m.out).elim .data Standard.ofContent) (hg : m.stopped = false)
    (hu : m.endTagWithAttributes = false) (hp : Plain env t.rest) (hl : m.lastStart = t.lastStart)
    (h1 : t.attrName = []) (h2 : t.attrValue = []) (h3 : t.attrs = []) : Rel env p out t m := by
  have e := settle_emit p out s (.startTag n sc as) .data
  rw [List.nil_append] at hq
  rw [ho] at hst
  refine .going ?_ ⟨hi, hc, ?_, hg, hu, hp, ?_⟩
  · rw [hq, hs, e, ho]
  · rw [hq, hs, e, hst]
    simp only [afterToken]
    cases p.switch (out ++ (if s = [] then [] else [.text s]) ++ [.startTag n sc as]) with
    | none => rfl
    | some c => cases c <;> rfl
  · rw [hq, hs, e]
    simp only [afterToken]
    cases p.switch (out ++ (if s = [] then [] else [.text s]) ++ [.startTag n sc as]) with
    | none => exact ⟨h1, h2, h3⟩
    | some c => cases c <;> first | exact ⟨h1, h2, h3⟩ | exact ⟨⟨h1, h2, h3⟩, hl⟩

end Verif.HtmlTok
