import Verif.CssTok.Conform2
import Verif.CssTok.Props

/-! # C96, C97: what is serialised is read back -/

namespace Verif.CssTok

open Standard Cssom

/-! ## Escaped characters are read back -/

/-- what is escaped as a code point -/
def coded : Str := (List.range 0x20).tail.map Char.ofNat ++ [Char.ofNat 0x7F] ++ digits

theorem mem_coded {c : Char} (h : Control c ∨ c ∈ digits) : c ∈ coded := by
  rcases h with h | h
  · have hc : c.toNat < 128 := by rcases h with h | h <;> omega
    revert h
    refine ascii_all (P := fun c => Control c → c ∈ coded) ?_ c hc
    decide +kernel
  · exact List.mem_append_right _ h

theorem code_ok {c : Char} (h : c ∈ coded) :
    (∀ x ∈ Nat.toDigits 16 c.toNat, isHex x = true) ∧ (Nat.toDigits 16 c.toNat).length ≤ 6 ∧ Nat.toDigits 16 c.toNat ≠ [] ∧
      unescape (Nat.toDigits 16 c.toNat) = c := by
  have : ∀ c ∈ coded, (∀ x ∈ Nat.toDigits 16 c.toNat, isHex x = true) ∧ (Nat.toDigits 16 c.toNat).length ≤ 6 ∧ Nat.toDigits 16 c.toNat ≠ [] ∧
      unescape (Nat.toDigits 16 c.toNat) = c := by decide +kernel
  exact this c h

theorem takeWhile_hex {ds r : Str} (h : ∀ x ∈ ds, isHex x = true) : (ds ++ ' ' :: r).takeWhile isHex = ds := by
  have : isHex ' ' = false := by decide
  induction ds with
  | nil => simp [this]
  | cons d ds ih => simp [h d (by simp), ih (fun x hx => h x (by simp [hx]))]

theorem escaped_code (env : Env) {c : Char} (h : c ∈ coded) (r : Str) : env.escaped (code c ++ r) = (c, r) := by
  obtain ⟨h1, h2, h3, h4⟩ := code_ok h
  unfold code
  unfold Env.escaped
  generalize Nat.toDigits 16 c.toNat = ds at *
  have e : ('\\' :: ds ++ [' ']) ++ r = '\\' :: (ds ++ ' ' :: r) := by simp
  rw [e, nextChar_cons (by decide)]
  have hw : env.isWs ' ' = true := (isWs_ascii env (by decide)).2 (.inl (by decide))
  simp only [takeWhile_hex h1, List.take_of_length_le h2, h4]
  rw [if_neg (by simp), List.drop_left]
  simp [hw, nextChar_cons (show ' ' ≠ '\r' by decide)]

theorem code_head (c : Char) (r : Str) : ∃ q, code c ++ r = '\\' :: q := ⟨_, rfl⟩

theorem code_second {c : Char} (h : c ∈ coded) (r : Str) : ∃ d q, code c ++ r = '\\' :: d :: q ∧ isHex d = true := by
  obtain ⟨h1, _, h3, _⟩ := code_ok h
  obtain ⟨d, q, e⟩ := List.exists_cons_of_ne_nil h3
  refine ⟨d, q ++ [' '] ++ r, ?_, h1 d (by rw [e]; simp)⟩
  simp [code, e]

theorem code_isEscape {c : Char} (h : c ∈ coded) (r : Str) : plainEscape (code c ++ r) = false ∧ isEscape 0 (code c ++ r) = true := by
  obtain ⟨d, q, e, hd⟩ := code_second h r
  rw [e]
  constructor
  · rw [← Bool.not_eq_true, plainEscape_iff]
    rintro ⟨_, _, e', h'⟩
    cases e'
    exact h' ((isHex_iff d).1 hd)
  · rw [isEscape_iff, validEscape_cons]
    refine ⟨rfl, ?_⟩
    rintro e'
    simp at e'
    subst e'
    exact absurd hd (by decide)

/-! ## Identifiers -/

/-- `value` of one character -/
def fixed (c : Char) : Char := if c = Char.ofNat 0 then Char.ofNat 0xFFFD else c

theorem value_eq (v : Str) : value v = v.map fixed := rfl

theorem ident_coded (env : Env) {c : Char} (h : c ∈ coded) (n : Nat) (r a : Str) :
    env.ident (n + 1) (code c ++ r) a = env.ident n r (a ++ [c]) := by
  obtain ⟨h1, h2⟩ := code_isEscape h r
  rw [Env.ident]
  simp only [h1, h2, Bool.false_eq_true, if_false, if_true, escaped_code env h]

theorem ident_raw (env : Env) {c : Char} (h1 : c ≠ '\\') (h2 : env.isIdentChar c = true) (h3 : c ≠ '\r') (n : Nat) (r a : Str) :
    env.ident (n + 1) (c :: r) a = env.ident n r (a ++ [c]) := by
  rw [Env.ident]
  have e1 : plainEscape (c :: r) = false := by simp [plainEscape, h1]
  have e2 : isEscape 0 (c :: r) = false := by simp [isEscape, h1]
  simp [e1, e2, toChar, h2, nextChar_cons h3]

theorem ident_plainEscape (env : Env) {c : Char} (h : ¬ HexDigit c) (h3 : c ≠ '\r') (n : Nat) (r a : Str) :
    env.ident (n + 1) ('\\' :: c :: r) a = env.ident n r (a ++ [c]) := by
  rw [Env.ident]
  have e1 : plainEscape ('\\' :: c :: r) = true := (plainEscape_iff _).2 ⟨c, r, rfl, h⟩
  simp [e1, nextChar_cons (show '\\' ≠ '\r' by decide), nextChar_cons h3]

theorem identChar_engine (env : Env) {c : Char} (h : 0x80 ≤ c.toNat ∨ c = '-' ∨ c = '_' ∨ c ∈ digits ∨ c ∈ letters) :
    env.isIdentChar c = true ∧ c ≠ '\\' ∧ c ≠ '\r' := by
  refine ⟨?_, ?_, ?_⟩
  · unfold Env.isIdentChar
    rcases h with h | rfl | rfl | h | h
    · simp [isIdentStart, h]
    · simp
    · simp [isIdentStart]
    · simp [(isNum_ascii env (digit_small h)).2 h]
    · simp [(isIdentStart_iff c).2 (.inl h)]
  · rintro rfl; revert h; decide
  · rintro rfl; revert h; decide

theorem plain_not_hex {c : Char} (h : ¬ (0x80 ≤ c.toNat ∨ c = '-' ∨ c = '_' ∨ c ∈ digits ∨ c ∈ letters)) (hc : ¬ Control c) :
    ¬ HexDigit c ∧ c ≠ '\r' ∧ c ≠ '\n' := by
  refine ⟨?_, ?_, ?_⟩
  · intro hx
    have : ∀ c ∈ hexDigits, c ∈ digits ∨ c ∈ letters := by decide +kernel
    exact h (by rcases this c hx with h | h <;> simp [h])
  · rintro rfl; exact hc (by decide)
  · rintro rfl; exact hc (by decide)

theorem ident_char (env : Env) (c : Char) (n : Nat) (r a : Str) :
    env.ident (n + 1) (identChar c ++ r) a = env.ident n r (a ++ [fixed c]) := by
  unfold identChar fixed
  split_ifs with h1 h2 h3
  · exact ident_raw env (by decide) (identChar_engine env (.inl (by decide))).1 (by decide) n r a
  · exact ident_coded env (mem_coded (.inl h2)) n r a
  · obtain ⟨e1, e2, e3⟩ := identChar_engine env h3
    exact ident_raw env e2 e1 e3 n r a
  · obtain ⟨e1, e2, _⟩ := plain_not_hex h3 h2
    exact ident_plainEscape env e1 e2 n r a

theorem ident_stop (env : Env) {r : Str} (h : Apart r) (n : Nat) (a : Str) : env.ident (n + 1) r a = some (a, r) := by
  rw [Env.ident]
  cases r with
  | nil => simp [plainEscape, isEscape, toChar, Env.isIdentChar, isIdentStart, Env.isNum]
  | cons c r =>
    obtain ⟨h1, h2, h3⟩ := h c rfl
    have e1 : plainEscape (c :: r) = false := by simp [plainEscape, h3]
    have e2 : isEscape 0 (c :: r) = false := by simp [isEscape, h3]
    have e3 : env.isIdentChar c = false := by
      rw [← Bool.not_eq_true]
      intro h
      apply h2
      simp only [Env.isIdentChar, Bool.or_eq_true, isIdentStart_iff, isNum_ascii env h1, decide_eq_true_eq, or_assoc] at h
      exact h
    simp [e1, e2, toChar, e3]

theorem ident_chars (env : Env) (v r a : Str) (h : Apart r) : ∃ n, env.ident n (v.flatMap identChar ++ r) a = some (a ++ value v, r) := by
  induction v generalizing a with
  | nil => exact ⟨1, by simpa [value] using ident_stop env h 0 a⟩
  | cons c v ih =>
    obtain ⟨n, e⟩ := ih (a ++ [fixed c])
    refine ⟨n + 1, ?_⟩
    rw [List.flatMap_cons, List.append_assoc, ident_char, e]
    simp [value_eq]

theorem fixed_digit {c : Char} (h : c ∈ digits) : fixed c = c := by
  rw [fixed, if_neg]
  rintro rfl
  exact absurd h (by decide)

/-- a serialised identifier is read back by `consume_ident` -/
theorem ident_back (env : Env) (v r a : Str) (h : Apart r) : ∃ n, env.ident n (Cssom.ident v ++ r) a = some (a ++ value v, r) := by
  cases v with
  | nil => exact ⟨1, by simpa [value, Cssom.ident] using ident_stop env h 0 a⟩
  | cons c v =>
    unfold Cssom.ident
    simp only
    split_ifs with h1 h2
    · obtain ⟨n, e⟩ := ident_chars env v r (a ++ [c]) h
      refine ⟨n + 1, ?_⟩
      rw [List.append_assoc, ident_coded env (mem_coded (.inr h1)), e]
      simp [value_eq, fixed_digit h1]
    · subst h2
      cases v with
      | nil =>
        refine ⟨2, ?_⟩
        show env.ident 2 ('\\' :: '-' :: r) a = _
        rw [ident_plainEscape env (by decide) (by decide), ident_stop env h]
        rfl
      | cons d v =>
        have dash : fixed '-' = '-' := by decide
        obtain ⟨n, e⟩ := ident_chars env v r (a ++ ['-'] ++ [fixed d]) h
        refine ⟨n + 1 + 1, ?_⟩
        simp only [List.cons_append, List.append_assoc]
        rw [ident_raw env (by decide) (identChar_engine env (by decide)).1 (by decide)]
        split_ifs with hd
        · rw [ident_coded env (mem_coded (.inr hd))]
          rw [fixed_digit hd] at e
          rw [e]
          simp [value_eq, fixed_digit hd, dash]
        · rw [ident_char, e]
          simp [value_eq, dash]
    · obtain ⟨n, e⟩ := ident_chars env v r (a ++ [fixed c]) h
      refine ⟨n + 1, ?_⟩
      rw [List.append_assoc, ident_char, e]
      simp [value_eq]

/-! ## What a serialised identifier begins with -/

theorem identChar_shape (c : Char) : (∃ x, identChar c = [x] ∧ (0x80 ≤ x.toNat ∨ x = '-' ∨ x = '_' ∨ x ∈ digits ∨ x ∈ letters) ∧ x = fixed c) ∨
    (∃ d q, identChar c = '\\' :: d :: q ∧ d ≠ '\n') := by
  unfold identChar fixed
  split_ifs with h1 h2 h3
  · exact .inl ⟨_, rfl, .inl (by decide), rfl⟩
  · right
    obtain ⟨d, q, e, hd⟩ := code_second (mem_coded (.inl h2)) []
    rw [List.append_nil] at e
    exact ⟨d, q, e, by rintro rfl; exact absurd hd (by decide)⟩
  · exact .inl ⟨c, rfl, h3, rfl⟩
  · exact .inr ⟨c, [], rfl, (plain_not_hex h3 h2).2.2⟩

theorem code_shape {c : Char} (h : c ∈ coded) : ∃ d q, code c = '\\' :: d :: q ∧ d ≠ '\n' := by
  obtain ⟨d, q, e, hd⟩ := code_second h []
  rw [List.append_nil] at e
  exact ⟨d, q, e, by rintro rfl; exact absurd hd (by decide)⟩

/-- an escape, a character that starts a name, or a hyphen with one of these or another hyphen -/
theorem ident_shape {v : Str} (h : v ≠ []) : (∃ d q, Cssom.ident v = '\\' :: d :: q ∧ d ≠ '\n') ∨
    (∃ x w q, v = w :: q ∧ Cssom.ident v = x :: q.flatMap identChar ∧ IdentStart x ∧ x = fixed w) ∨
    (∃ d q, Cssom.ident v = '-' :: '\\' :: d :: q ∧ d ≠ '\n') ∨
    (∃ x w q, v = '-' :: w :: q ∧ Cssom.ident v = '-' :: x :: q.flatMap identChar ∧ (IdentStart x ∨ x = '-') ∧ x = fixed w) := by
  cases v with
  | nil => exact absurd rfl h
  | cons c v =>
    unfold Cssom.ident
    simp only
    split_ifs with h1 h2
    · left
      obtain ⟨d, q, e, hd⟩ := code_shape (mem_coded (.inr h1))
      exact ⟨d, q ++ v.flatMap identChar, by rw [e]; rfl, hd⟩
    · subst h2
      cases v with
      | nil => exact .inl ⟨'-', [], rfl, by decide⟩
      | cons w v =>
        right; right
        simp only
        split_ifs with hw
        · left
          obtain ⟨d, q, e, hd⟩ := code_shape (mem_coded (.inr hw))
          exact ⟨d, q ++ v.flatMap identChar, by rw [e]; rfl, hd⟩
        · rcases identChar_shape w with ⟨x, e, hx, hf⟩ | ⟨d, q, e, hd⟩
          · right
            refine ⟨x, w, v, rfl, by rw [e]; rfl, ?_, hf⟩
            rcases hx with hx | hx | hx | hx | hx
            · exact .inl (.inr (.inl hx))
            · exact .inr hx
            · exact .inl (.inr (.inr hx))
            · exfalso
              rw [hf, fixed] at hx
              split_ifs at hx
              · exact absurd hx (by decide)
              · exact hw hx
            · exact .inl (.inl hx)
          · left
            exact ⟨d, q ++ v.flatMap identChar, by rw [e]; rfl, hd⟩
    · rcases identChar_shape c with ⟨x, e, hx, hf⟩ | ⟨d, q, e, hd⟩
      · right; left
        refine ⟨x, c, v, rfl, by rw [e]; rfl, ?_, hf⟩
        rcases hx with hx | hx | hx | hx | hx
        · exact .inr (.inl hx)
        · exfalso
          rw [hf, fixed] at hx
          split_ifs at hx
          · exact absurd hx (by decide)
          · exact h2 hx
        · exact .inr (.inr hx)
        · exfalso
          rw [hf, fixed] at hx
          split_ifs at hx
          · exact absurd hx (by decide)
          · exact h1 hx
        · exact .inl hx
      · left
        exact ⟨d, q ++ v.flatMap identChar, by rw [e]; rfl, hd⟩

theorem startsIdent_back {v : Str} (h : v ≠ []) (r : Str) : startsIdent (Cssom.ident v ++ r) = true := by
  rw [startsIdent_iff]
  rcases ident_shape h with ⟨d, q, e, hd⟩ | ⟨x, w, q, _, e, hx, _⟩ | ⟨d, q, e, hd⟩ | ⟨x, w, q, _, e, hx, _⟩ <;> rw [e]
  · exact .inr (.inl (validEscape_cons.2 ⟨rfl, by simp [hd]⟩))
  · exact .inl (starts_cons.2 hx)
  · exact .inr (.inr ⟨_, rfl, .inr (validEscape_cons.2 ⟨rfl, by simp [hd]⟩)⟩)
  · exact .inr (.inr ⟨_, rfl, .inl (starts_cons.2 hx)⟩)

/-! ## Strings -/

theorem string_step_coded (env : Env) {c : Char} (h : c ∈ coded) (n : Nat) (r a : Str) :
    env.string '"' (n + 1) (code c ++ r) a = env.string '"' n r (a ++ [c]) := by
  obtain ⟨h1, h2⟩ := code_isEscape h r
  obtain ⟨d, q, e, hd⟩ := code_second h r
  have hn : d ≠ '\n' := by rintro rfl; exact absurd hd (by decide)
  rw [Env.string, if_neg (by rw [e]; simp), if_neg (by rw [e]; simp), if_neg (by rw [e]; simp [hn]), if_neg (by simp [h1]), if_pos h2,
    escaped_code env h]

theorem string_step_char (env : Env) (c : Char) (n : Nat) (r a : Str) :
    env.string '"' (n + 1) (stringChar c ++ r) a = env.string '"' n r (a ++ [fixed c]) := by
  unfold stringChar fixed
  have raw : ∀ x : Char, x ≠ '"' → x ≠ '\n' → x ≠ '\\' → x ≠ '\r' → env.string '"' (n + 1) ([x] ++ r) a = env.string '"' n r (a ++ [x]) := by
    intro x h1 h2 h3 h4
    rw [Env.string, if_neg (by simp [h1]), if_neg (by simp [h2]), if_neg (by simp [h3]), if_neg (by simp [plainEscape, h3]),
      if_neg (by simp [isEscape, h3])]
    rw [List.singleton_append, nextChar_cons h4]
  split_ifs with h1 h2 h3
  · exact raw _ (by decide) (by decide) (by decide) (by decide)
  · exact string_step_coded env (mem_coded (.inl h2)) n r a
  · have hx : ¬ HexDigit c := by rcases h3 with rfl | rfl <;> decide
    have hn : c ≠ '\n' := by rcases h3 with rfl | rfl <;> decide
    have hr : c ≠ '\r' := by rcases h3 with rfl | rfl <;> decide
    show env.string '"' (n + 1) ('\\' :: c :: r) a = _
    rw [Env.string, if_neg (by simp), if_neg (by simp), if_neg (by simp [hn]), if_pos ((plainEscape_iff _).2 ⟨c, r, rfl, hx⟩),
      nextChar_cons (show '\\' ≠ '\r' by decide), nextChar_cons hr]
  · rw [not_or] at h3
    exact raw c h3.1 (by rintro rfl; exact h2 (by decide)) h3.2 (by rintro rfl; exact h2 (by decide))

theorem string_chars (env : Env) (v r a : Str) :
    ∃ n, env.string '"' n (v.flatMap stringChar ++ '"' :: r) a = some (.quotedString (a ++ value v), r) := by
  induction v generalizing a with
  | nil =>
    refine ⟨1, ?_⟩
    rw [Env.string]
    simp [value, nextChar_cons (show '"' ≠ '\r' by decide)]
  | cons c v ih =>
    obtain ⟨n, e⟩ := ih (a ++ [fixed c])
    refine ⟨n + 1, ?_⟩
    rw [List.flatMap_cons, List.append_assoc, string_step_char, e]
    simp [value_eq]

/-! ## Tokens -/

/-- with enough rounds it is what it is with some -/
theorem enough {env : Env} {first : Bool} {s : Str} {x : Token × Str} (h : ∃ n, env.token n first s = some x) {m : Nat} (hm : s.length < m) :
    env.token m first s = some x := by
  obtain ⟨n, h⟩ := h
  obtain ⟨t, r, e, _⟩ := token_total env m first s hm
  rw [e, token_unique env h e]

theorem token_plain (env : Env) (n : Nat) (first : Bool) {c : Char} (s : Str) (h1 : first = true → c ≠ Char.ofNat 0xFEFF) (h2 : c ≠ '/') :
    env.token n first (c :: s) = env.dispatch n (c :: s) := by
  have e : (first && decide ((c :: s)[0]? = some (Char.ofNat 0xFEFF))) = false := by
    cases first with
    | false => rfl
    | true => simpa using h1 rfl
  unfold Env.token
  simp only [e, Bool.false_eq_true, if_false]
  congr 1
  cases s with
  | nil => rfl
  | cons d s =>
    rw [skipComments]
    simp [h2]

/-- **C96.** A string written as the CSSOM says is read back as that string (with U+FFFD for NUL), whatever follows. -/
theorem C96_strings (env : Env) (first : Bool) (v r : Str) (n : Nat) (hn : (Cssom.string v ++ r).length < n) :
    env.token n first (Cssom.string v ++ r) = some (.quotedString (value v), r) := by
  refine enough ?_ hn
  obtain ⟨n, e⟩ := string_chars env v r []
  refine ⟨n, ?_⟩
  have hs : Cssom.string v ++ r = '"' :: (v.flatMap stringChar ++ '"' :: r) := by simp [Cssom.string]
  rw [hs, token_plain env n first _ (fun _ => by decide) (by decide), Env.dispatch,
    if_neg (by rw [isWs_ascii env (by decide)]; decide), if_pos (.inl rfl), e]
  rfl

/-- **C96.** So is a `#` with a name. -/
theorem C96_hashes (env : Env) (first : Bool) (v r : Str) (hv : v ≠ []) (hr : Apart r) (n : Nat) (hn : ('#' :: Cssom.ident v ++ r).length < n) :
    env.token n first ('#' :: Cssom.ident v ++ r) = some (.hash (value v), r) := by
  refine enough ?_ hn
  obtain ⟨n, e⟩ := ident_back env v r [] hr
  refine ⟨n, ?_⟩
  have hst := ident_of_starts env (startsIdent_back hv r)
  rw [List.cons_append, token_plain env n first _ (fun _ => by decide) (by decide), Env.dispatch,
    if_neg (by rw [isWs_ascii env (by decide)]; decide), if_neg (by decide), if_pos rfl, if_pos (by simpa using hst), e]
  rfl

/-- **C96.** So is an at-keyword. -/
theorem C96_at_keywords (env : Env) (first : Bool) (v r : Str) (hv : v ≠ []) (hr : Apart r) (n : Nat)
    (hn : ('@' :: Cssom.ident v ++ r).length < n) :
    env.token n first ('@' :: Cssom.ident v ++ r) = some (.atKeyword (value v), r) := by
  refine enough ?_ hn
  obtain ⟨n, e⟩ := ident_back env v r [] hr
  refine ⟨n, ?_⟩
  rw [List.cons_append, token_plain env n first _ (fun _ => by decide) (by decide), Env.dispatch,
    if_neg (by rw [isWs_ascii env (by decide)]; decide), if_neg (by decide), if_neg (by decide), if_neg (by decide), if_neg (by decide),
    if_neg (by decide), if_neg (by decide), if_neg (by decide), if_neg (by decide), if_neg (by decide), if_neg (by decide), if_neg (by decide),
    if_neg (by decide), if_neg (by decide), if_neg (by decide), if_neg (by decide), if_pos rfl, if_pos (startsIdent_back hv r), e]
  rfl

example : Cssom.string "a\"\\\n5".toList = "\"a\\\"\\\\\\a 5\"".toList ∧ Cssom.ident "-5 x".toList = "-\\35 \\ x".toList ∧ Apart "{}".toList := by
  refine ⟨by decide +kernel, by decide +kernel, ?_⟩
  intro c hc
  simp at hc
  subst hc
  decide

end Verif.CssTok
