import Verif.CssTok.Conform2
import Verif.CssTok.Determ
import Verif.CssTok.Props
import Mathlib.Data.List.Infix

/-! # C95: the tokens are those of the standard -/

namespace Verif.CssTok

open Standard

/-- the full claim: of every text, the tokens are those of CSS Syntax Level 3 -/
def Conforms (env : Env) : Prop := ∀ s ts, Yields env true s ts → Tokens (preprocess (decode s)) (ts.map bare)

/-- the standard gives one list of tokens -/
theorem C95_standard_unique (s : Str) (ts us : List Token) (h : Tokens s ts) (h' : Tokens s us) : ts = us := tokens_det h h'

/-- **C95, in part.** Of tame text, the engine's tokens are the standard's. Missing: the texts that are not `Tame`, for which it is
false. -/
theorem C95_standard_partial (env : Env) (s : Str) (ts : List Token) (ht : Tame env (decode s)) (h : Yields env true s ts) :
    Tokens (preprocess (decode s)) (ts.map bare) := by
  rw [preprocess_id (fun c hc => ⟨(ht.chars c hc).1, (ht.chars c hc).2.2.1, (ht.chars c hc).2.2.2.1⟩)]
  exact yields_ok rfl ht (yields_decode h)

theorem not_conforms {env : Env} {s : Str} {ts us : List Token} (h : Yields env true s ts) (h' : Tokens (preprocess (decode s)) us)
    (hne : ts.map bare ≠ us) : ¬ Conforms env := fun hc => hne (tokens_det (hc s ts h) h')

/-! ## A tame text -/

theorem name_plain {t v q : Str} (hb : '\\' ∉ t) (h : Name t v q) :
    v = t.takeWhile (fun c => decide (IdentChar c)) ∧ q = t.dropWhile (fun c => decide (IdentChar c)) := by
  induction h with
  | char hc _ ih =>
    obtain ⟨h1, h2⟩ := ih (by simp at hb; exact hb.2)
    simp [hc, h1, h2]
  | escape => simp at hb
  | @stop s h =>
    cases s with
    | nil => simp
    | cons c s =>
      have : ¬ IdentChar c := fun hc => h (starts_cons.2 hc)
      simp [this]

instance (v : Str) : Decidable (isUrl v) := inferInstanceAs (Decidable (List.map _ v = _))

/-- text without backslashes, in which every url is plain -/
theorem tame_of {env : Env} {s : Str} (hb : '\\' ∉ s) (hc : ∀ c ∈ s, c ≠ '\r' ∧ c ≠ '\x0B' ∧ c ≠ '\x0C' ∧ c ≠ Char.ofNat 0 ∧ c.toNat < 128)
    (hp : ∀ t ∈ s.tails, t.head? = some 'u' ∨ t.head? = some 'U' → t[1]? ≠ some '+')
    (hu : ∀ t ∈ s.tails, (t.dropWhile (fun c => decide (IdentChar c))).head? = some '(' → isUrl (t.takeWhile (fun c => decide (IdentChar c))) →
      t.takeWhile (fun c => decide (IdentChar c)) = "url".toList ∧ ((t.dropWhile (fun c => decide (IdentChar c))).tail.dropWhile
        (fun x => decide (¬ Whitespace x ∧ ¬ NotInUrl x ∧ x ≠ ')' ∧ x ≠ '\\'))).head? = some ')') : Tame env s where
  chars c h := by
    obtain ⟨h1, h2, h3, h4, h5⟩ := hc c h
    exact ⟨h1, h2, h3, h4, fun h' => by omega⟩
  last h := hb (h.subset (by simp))
  newline h := hb (h.subset (by simp))
  max t c r h := absurd (h.subset (by simp)) hb
  range u c t h h1 := absurd rfl (hp (u :: '+' :: c :: t) ((List.mem_tails _ _).2 h) (by simpa using h1))
  url t v r h hn hv := by
    obtain ⟨rfl, e⟩ := name_plain (fun h' => hb (h.subset h')) hn
    have := hu t ((List.mem_tails _ _).2 h) (by rw [← e]; rfl) hv
    rw [← e] at this
    refine ⟨this.1, .inr ⟨[], r.takeWhile (fun x => decide (¬ Whitespace x ∧ ¬ NotInUrl x ∧ x ≠ ')' ∧ x ≠ '\\')), [],
      r.dropWhile (fun x => decide (¬ Whitespace x ∧ ¬ NotInUrl x ∧ x ≠ ')' ∧ x ≠ '\\')), ?_, by simp, ?_, .inr this.2⟩⟩
    · simp only [List.nil_append, List.append_nil]
      exact (List.takeWhile_append_dropWhile).symm
    · intro x hx
      simpa using List.all_eq_true.1 List.all_takeWhile x hx

/-- Such a text, and what is read of it: a selector and a declaration with a url, a length and a string, and a comment. -/
example : Tame ascii "#a{b:url(c.d) -1.5em \"x\"/*y*/}".toList ∧ Yields ascii true "#a{b:url(c.d) -1.5em \"x\"/*y*/}".toList
    [.hash ['a'], .lCurly, .ident ['b'], .colon, .url "c.d".toList, .whitespace, .dimension "-1.5".toList "em".toList, .whitespace,
     .quotedString ['x'], .rCurly, .eof] :=
  ⟨tame_of (by decide +kernel) (by decide +kernel) (by decide +kernel) (by decide +kernel), yields_of_run (n := 30) (k := 30) (by decide +kernel)⟩

/-! ## Reading short texts by the standard -/

theorem no_comment {c : Char} {s : Str} (h : c ≠ '/') : Comments (c :: s) (c :: s) := by
  refine .none ?_
  rintro ⟨r, e⟩
  cases e
  exact h rfl

theorem next_of {c : Char} {s : Str} {t : Token} {r : Str} (hc : c ≠ '/') (h : Consume (c :: s) t r) : Next (c :: s) t r := ⟨_, no_comment hc, h⟩

theorem tokens_nil : Tokens [] [.eof] := .eof ⟨[], .none (by decide), .eof⟩

theorem tokens_of {c : Char} {s : Str} {t : Token} {r : Str} {ts : List Token} (h : Consume (c :: s) t r) (hc : c ≠ '/' := by decide)
    (ht : t ≠ .eof := by simp) (hs : Tokens r ts) : Tokens (c :: s) (t :: ts) := .next (next_of hc h) ht hs

theorem not_starts {P : Char → Prop} {c : Char} {s : Str} (h : ¬ P c) : ¬ Starts P (c :: s) := fun h' => h (starts_cons.1 h')

theorem not_escape {c : Char} {s : Str} (h : c ≠ '\\') : ¬ ValidEscape (c :: s) := fun h' => h (validEscape_cons.1 h').1

theorem stop_cons {c : Char} {s : Str} (h : ¬ IdentChar c) (h' : c ≠ '\\') : Name (c :: s) [] (c :: s) := .stop (not_starts h) (not_escape h')

theorem stop_nil : Name [] [] [] := .stop starts_nil not_validEscape_nil

theorem skips_none {c : Char} {s : Str} (h : ¬ Whitespace c) : Skips (c :: s) (c :: s) := ⟨[], rfl, by simp, not_starts h⟩

theorem one_name {c : Char} {s : Str} (h : Name s [] s) (hc : IdentChar c) : Name (c :: s) [c] s := .char hc h

/-- an identifier of one character -/
theorem one_ident {c : Char} {s : Str} (hc : IdentStart c) (h : Name s [] s) (hp : s.head? ≠ some '(') : Consume (c :: s) (.ident [c]) s :=
  .ident hc (.ident (one_name h (.inl hc)) hp)

/-- `url(` in small letters -/
theorem name_url {s : Str} : Name ('u' :: 'r' :: 'l' :: '(' :: s) "url".toList ('(' :: s) :=
  .char (by decide) (.char (by decide) (.char (by decide) (stop_cons (by decide) (by decide))))

theorem url_token {c : Char} {s r : Str} {t : Token} (hc : ¬ Whitespace c) (h : (c :: s).head? ≠ some '"' ∧ (c :: s).head? ≠ some '\'')
    (hu : Url [] (c :: s) t r) : Consume ('u' :: 'r' :: 'l' :: '(' :: c :: s) t r :=
  .ident (by decide) (.url name_url isUrl_url (skips_none hc) h hu)

/-! ## Where the engine differs -/

/-- The standard knows three characters as white space, the engine all that Unicode does. -/
theorem C95_unicode_space_violated (env : Env) (h : env.ws (Char.ofNat 0xA0) = true) : ¬ Conforms env := by
  refine not_conforms (s := [Char.ofNat 0xA0]) (ts := [.whitespace, .eof]) (us := [.ident [Char.ofNat 0xA0], .eof])
    (yields_of_run (n := 9) (k := 9) ?_) ?_ (by decide)
  · have e : env.isWs (Char.ofNat 0xA0) = true := by simp [Env.isWs, h]
    have e1 : env.token 9 true [Char.ofNat 0xA0] = some (.whitespace, []) := by
      have : env.token 9 true [Char.ofNat 0xA0] = env.dispatch 9 [Char.ofNat 0xA0] := rfl
      rw [this, Env.dispatch]
      simp [e, Env.skipWs]
    rw [run, e1]
    rfl
  · show Tokens [Char.ofNat 0xA0] _
    exact tokens_of (one_ident (by decide) stop_nil (by simp)) (by decide) (by simp) tokens_nil

/-- What Unicode calls a number begins a number: a superscript two, which for the standard is a name. -/
theorem C95_unicode_number_violated (env : Env) (h : env.num (Char.ofNat 0xB2) = true) (h' : env.ws (Char.ofNat 0xB2) = false) : ¬ Conforms env := by
  refine not_conforms (s := [Char.ofNat 0xB2]) (ts := [.number [Char.ofNat 0xB2], .eof]) (us := [.ident [Char.ofNat 0xB2], .eof])
    (yields_of_run (n := 9) (k := 9) ?_) ?_ (by decide)
  · have e : env.isWs (Char.ofNat 0xB2) = false := by simp [Env.isWs, h']
    have e' : env.isNum (Char.ofNat 0xB2) = true := by simp [Env.isNum, h]
    have e2 : env.numeric 9 [Char.ofNat 0xB2] = some (.number [Char.ofNat 0xB2], []) := by
      have e3 : env.number [Char.ofNat 0xB2] = ([Char.ofNat 0xB2], []) := by
        have : sign [Char.ofNat 0xB2] = ([], [Char.ofNat 0xB2]) := by decide
        simp [Env.number, this, Env.digits, e', Env.fraction, Env.exponent]
      rw [Env.numeric, e3]
      rfl
    have e1 : env.token 9 true [Char.ofNat 0xB2] = some (.number [Char.ofNat 0xB2], []) := by
      have : env.token 9 true [Char.ofNat 0xB2] = env.dispatch 9 [Char.ofNat 0xB2] := rfl
      rw [this, Env.dispatch, ← e2]
      rw [if_neg (by simp [e]), if_neg (by decide), if_neg (by decide), if_neg (by decide), if_neg (by decide), if_neg (by decide), if_neg (by decide),
        if_neg (by decide), if_neg (by decide), if_neg (by decide), if_neg (by decide), if_neg (by decide), if_neg (by decide), if_neg (by decide),
        if_neg (by decide), if_neg (by decide), if_neg (by decide), if_neg (by decide), if_pos e']
    rw [run, e1]
    rfl
  · show Tokens [Char.ofNat 0xB2] _
    exact tokens_of (one_ident (by decide) stop_nil (by simp)) (by decide) (by simp) tokens_nil

/-- NUL is not replaced. -/
theorem C95_nul_violated (env : Env) : ¬ Conforms env := by
  refine not_conforms (s := [Char.ofNat 0]) (ts := [.delim (Char.ofNat 0), .eof]) (us := [.ident [Char.ofNat 0xFFFD], .eof])
    (yields_of_run (n := 9) (k := 9) rfl) ?_ (by decide)
  show Tokens [Char.ofNat 0xFFFD] _
  exact tokens_of (one_ident (by decide) stop_nil (by simp)) (by decide) (by simp) tokens_nil

/-- A carriage return is no newline: it may stand in a string. -/
theorem C95_return_violated (env : Env) : ¬ Conforms env := by
  refine not_conforms (s := ['"', '\r', '"']) (ts := [.quotedString ['\r'], .eof]) (us := [.badString [], .whitespace, .quotedString [], .eof])
    (yields_of_run (n := 9) (k := 9) rfl) ?_ (by decide)
  show Tokens ['"', '\n', '"'] _
  refine tokens_of (.string (.inl rfl) .newline) (by decide) (by simp) ?_
  refine tokens_of (.whitespace (starts_cons.2 (by decide)) ⟨['\n'], rfl, by decide, not_starts (by decide)⟩) (by decide) (by simp) ?_
  exact tokens_of (.string (.inl rfl) .eof) (by decide) (by simp) tokens_nil

/-- `URL(` is not taken as `url(`. -/
theorem C95_url_case_violated (env : Env) : ¬ Conforms env := by
  refine not_conforms (s := "URL(a)".toList) (ts := [.function "URL".toList, .ident ['a'], .rParen, .eof]) (us := [.url ['a'], .eof])
    (yields_of_run (n := 9) (k := 9) rfl) ?_ (by decide)
  show Tokens ['U', 'R', 'L', '(', 'a', ')'] _
  refine tokens_of (.ident (by decide) (.url (v := "URL".toList) (r := ['a', ')']) ?_ ?_ (skips_none (by decide)) (by simp) ?_)) (by decide) (by simp) tokens_nil
  · exact .char (by decide) (.char (by decide) (.char (by decide) (stop_cons (by decide) (by decide))))
  · show List.map _ _ = _
    decide +kernel
  · exact .other (by decide) (by decide) (by decide) (by decide) .close

/-- White space inside a url does not make it bad: it is left out. -/
theorem C95_url_space_violated (env : Env) : ¬ Conforms env := by
  refine not_conforms (s := "url(a b)".toList) (ts := [.url "ab".toList, .eof]) (us := [.badUrl [], .eof])
    (yields_of_run (n := 9) (k := 9) rfl) ?_ (by decide)
  show Tokens ['u', 'r', 'l', '(', 'a', ' ', 'b', ')'] _
  refine tokens_of (url_token (by decide) (by simp) ?_) (by decide) (by simp) tokens_nil
  refine .other (by decide) (by decide) (by decide) (by decide) (.badSpace (starts_cons.2 (by decide))
    (s' := ['b', ')']) ⟨[' '], rfl, by decide, not_starts (by decide)⟩ (by simp) (by simp) ?_)
  exact .other (by decide) (not_escape (by decide)) .close

/-- An escaped parenthesis in a url becomes U+FFFD and ends the url. -/
theorem C95_url_escape_violated (env : Env) : ¬ Conforms env := by
  refine not_conforms (s := "url(\\))".toList) (ts := [.url [Char.ofNat 0xFFFD], .rParen, .eof]) (us := [.url [')'], .eof])
    (yields_of_run (n := 9) (k := 9) rfl) ?_ (by decide)
  show Tokens ['u', 'r', 'l', '(', '\\', ')', ')'] _
  refine tokens_of (url_token (by decide) (by simp) ?_) (by decide) (by simp) tokens_nil
  exact .escape (validEscape_cons.2 ⟨rfl, by simp⟩) (.other (by decide)) .close

/-- The parenthesis that ends a bad url is not read with it. -/
theorem C95_bad_url_violated (env : Env) : ¬ Conforms env := by
  refine not_conforms (s := "url(a()".toList) (ts := [.badUrl ['a'], .rParen, .eof]) (us := [.badUrl [], .eof])
    (yields_of_run (n := 9) (k := 9) rfl) ?_ (by decide)
  show Tokens ['u', 'r', 'l', '(', 'a', '(', ')'] _
  refine tokens_of (url_token (by decide) (by simp) ?_) (by decide) (by simp) tokens_nil
  exact .other (by decide) (by decide) (by decide) (by decide) (.bad (by decide) .close)

/-- A backslash at the end of an unclosed string becomes U+FFFD. -/
theorem C95_string_end_violated (env : Env) : ¬ Conforms env := by
  refine not_conforms (s := ['"', '\\']) (ts := [.quotedString [Char.ofNat 0xFFFD], .eof]) (us := [.quotedString [], .eof])
    (yields_of_run (n := 9) (k := 9) rfl) ?_ (by decide)
  show Tokens ['"', '\\'] _
  exact tokens_of (.string (.inl rfl) .backslashEof) (by decide) (by simp) tokens_nil

/-- The last code point cannot be escaped. -/
theorem C95_last_code_point_violated (env : Env) : ¬ Conforms env := by
  refine not_conforms (s := "\\10FFFF".toList) (ts := [.ident [Char.ofNat 0xFFFD], .eof]) (us := [.ident [Char.ofNat 0x10FFFF], .eof])
    (yields_of_run (n := 9) (k := 9) rfl) ?_ (by decide)
  show Tokens ['\\', '1', '0', 'F', 'F', 'F', 'F'] _
  refine tokens_of (.backslash (validEscape_cons.2 ⟨rfl, by simp⟩) (.ident ?_ (by simp))) (by decide) (by simp) tokens_nil
  refine .escape (s' := []) (validEscape_cons.2 ⟨rfl, by simp⟩) ?_ stop_nil
  have e : Char.ofNat 0x10FFFF = codePoint (number ['1', '0', 'F', 'F', 'F', 'F']) := by decide +kernel
  rw [e]
  exact .hex (ds := ['1', '0', 'F', 'F', 'F', 'F']) (w := []) (r := []) (by simp) (by simp) (by decide) (.inl rfl) (.inr ⟨rfl, starts_nil⟩)

/-- A backslash before a newline goes on with a name. -/
theorem C95_name_newline_violated (env : Env) : ¬ Conforms env := by
  refine not_conforms (s := ['a', '\\', '\n']) (ts := [.ident ['a', '\n'], .eof]) (us := [.ident ['a'], .delim '\\', .whitespace, .eof])
    (yields_of_run (n := 9) (k := 9) rfl) ?_ (by decide)
  show Tokens ['a', '\\', '\n'] _
  have hv : ¬ ValidEscape ['\\', '\n'] := fun h => absurd rfl (validEscape_cons.1 h).2
  refine tokens_of (one_ident (by decide) (.stop (not_starts (by decide)) hv) (by simp)) (by decide) (by simp) ?_
  refine tokens_of (.backslashDelim hv) (by decide) (by simp) ?_
  exact tokens_of (.whitespace (starts_cons.2 (by decide)) ⟨['\n'], rfl, by decide, starts_nil⟩) (by decide) (by simp) tokens_nil

/-- `u+a`, two selectors and a combinator, is one unicode range. -/
theorem C95_range_violated (env : Env) : ¬ Conforms env := by
  refine not_conforms (s := "u+a".toList) (ts := [.unicodeRange "u+a".toList, .eof]) (us := [.ident ['u'], .delim '+', .ident ['a'], .eof])
    (yields_of_run (n := 9) (k := 9) rfl) ?_ (by decide)
  show Tokens ['u', '+', 'a'] _
  refine tokens_of (one_ident (by decide) (stop_cons (by decide) (by decide)) (by simp)) (by decide) (by simp) ?_
  refine tokens_of (.delim (.inl rfl) ?_) (by decide) (by simp) ?_
  · rintro ((h | ⟨_, h, _⟩) | ⟨_, _, h, _, h' | ⟨_, h', _⟩⟩)
    · exact absurd (starts_cons.1 h) (by decide)
    · cases h
    · cases h; exact absurd (starts_cons.1 h') (by decide)
    · cases h; cases h'
  · exact tokens_of (one_ident (by decide) stop_nil (by simp)) (by decide) (by simp) tokens_nil

/-- White space between `url(` and a quote is lost. -/
theorem C95_url_quote_violated (env : Env) : ¬ Conforms env := by
  refine not_conforms (s := "url( \"\"".toList) (ts := [.function "url".toList, .quotedString [], .eof])
    (us := [.function "url".toList, .whitespace, .quotedString [], .eof]) (yields_of_run (n := 9) (k := 9) rfl) ?_ (by decide)
  show Tokens ['u', 'r', 'l', '(', ' ', '"', '"'] _
  have hq : Skips [' ', '"', '"'] ['"', '"'] := ⟨[' '], rfl, by decide, not_starts (by decide)⟩
  refine tokens_of (.ident (by decide) (.quotedUrl name_url isUrl_url
    (.inr ⟨' ', ['"', '"'], by decide, rfl, not_starts (by decide), [], rfl, by simp⟩) ⟨_, hq, .inl rfl⟩)) (by decide) (by simp) ?_
  refine tokens_of (.whitespace (starts_cons.2 (by decide)) hq) (by decide) (by simp) ?_
  exact tokens_of (.string (.inl rfl) .close) (by decide) (by simp) tokens_nil

end Verif.CssTok
