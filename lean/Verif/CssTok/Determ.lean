import Verif.CssTok.Chars

/-! # The standard's rules leave no choice -/

namespace Verif.CssTok

open Standard

/-- as much as possible is one thing -/
theorem maximal_unique {P : Char → Prop} {a a' r r' : Str} (h : a ++ r = a' ++ r') (ha : ∀ c ∈ a, P c) (ha' : ∀ c ∈ a', P c)
    (hr : ¬ Starts P r) (hr' : ¬ Starts P r') : a = a' ∧ r = r' := by
  induction a generalizing a' with
  | nil =>
    cases a' with
    | nil => exact ⟨rfl, by simpa using h⟩
    | cons c a' =>
      simp at h
      exact absurd (h ▸ starts_cons.2 (ha' c (by simp))) hr
  | cons c a ih =>
    cases a' with
    | nil =>
      simp at h
      exact absurd (h.symm ▸ starts_cons.2 (ha c (by simp))) hr'
    | cons c' a' =>
      simp at h
      obtain ⟨rfl, h⟩ := h
      obtain ⟨rfl, e⟩ := ih h (fun c hc => ha c (by simp [hc])) (fun c hc => ha' c (by simp [hc]))
      exact ⟨rfl, e⟩

/-- as much as possible up to a length is one thing -/
theorem maximal_unique_upto {P : Char → Prop} {n : Nat} {a a' r r' : Str} (h : a ++ r = a' ++ r') (ha : ∀ c ∈ a, P c)
    (ha' : ∀ c ∈ a', P c) (hn : a.length ≤ n) (hn' : a'.length ≤ n) (hr : a.length = n ∨ ¬ Starts P r)
    (hr' : a'.length = n ∨ ¬ Starts P r') : a = a' ∧ r = r' := by
  induction a generalizing a' n with
  | nil =>
    cases a' with
    | nil => exact ⟨rfl, by simpa using h⟩
    | cons c a' =>
      simp at h hn hr hn'
      rcases hr with rfl | hr
      · omega
      · exact absurd (h ▸ starts_cons.2 (ha' c (by simp))) hr
  | cons c a ih =>
    cases a' with
    | nil =>
      simp at h hn hr' hn'
      rcases hr' with rfl | hr'
      · omega
      · exact absurd (h.symm ▸ starts_cons.2 (ha c (by simp))) hr'
    | cons c' a' =>
      cases n with
      | zero => simp at hn
      | succ n =>
        simp at h hn hn' hr hr'
        obtain ⟨rfl, h⟩ := h
        obtain ⟨rfl, e⟩ := ih h (fun c hc => ha c (by simp [hc])) (fun c hc => ha' c (by simp [hc])) hn hn' hr hr'
        exact ⟨rfl, e⟩

theorem escaped_det {s r r' : Str} {c c' : Char} (h : Escaped s c r) (h' : Escaped s c' r') : c = c' ∧ r = r' := by
  have other : ∀ {ds w r q : Str} {x : Char}, ds ≠ [] → (∀ c ∈ ds, HexDigit c) → ds ++ w ++ r = x :: q → HexDigit x := by
    intro ds w r q x h0 hd e
    cases ds with
    | nil => exact absurd rfl h0
    | cons y ds =>
      simp at e
      exact e.1 ▸ hd y (by simp)
  generalize hs : s = s0 at h'
  cases h with
  | @hex ds w r h0 h6 hd hmax hw =>
    cases h' with
    | @hex ds' w' r' h0' h6' hd' hmax' hw' =>
      rw [List.append_assoc, List.append_assoc] at hs
      obtain ⟨rfl, e⟩ := maximal_unique_upto hs hd hd' h6 h6' hmax hmax'
      refine ⟨rfl, ?_⟩
      rcases hw with ⟨x, rfl, hx⟩ | ⟨rfl, hn⟩ <;> rcases hw' with ⟨y, rfl, hy⟩ | ⟨rfl, hn'⟩
      · simp at e; exact e.2
      · simp at e; exact absurd (e ▸ starts_cons.2 hx) hn'
      · simp at e; exact absurd (e ▸ starts_cons.2 hy) hn
      · simpa using e
    | eof =>
      exfalso
      simp at hs
      exact h0 hs.1
    | other hc => exact absurd (other h0 hd hs) hc
  | eof =>
    cases h' with
    | hex h0 =>
      exfalso
      have := congrArg List.length hs
      simp at this
      exact h0 (List.length_eq_zero_iff.1 (by omega))
    | eof => exact ⟨rfl, rfl⟩
    | other => cases hs
  | other hc =>
    cases h' with
    | hex h0' h6' hd' => exact absurd (other h0' hd' hs.symm) hc
    | eof => cases hs
    | other => cases hs; exact ⟨rfl, rfl⟩

theorem not_identChar_backslash : ¬ IdentChar '\\' := by decide

theorem name_det {s v r v' r' : Str} (h : Name s v r) (h' : Name s v' r') : v = v' ∧ r = r' := by
  induction h generalizing v' r' with
  | char hc _ ih =>
    cases h' with
    | char _ h2 => obtain ⟨rfl, rfl⟩ := ih h2; exact ⟨rfl, rfl⟩
    | escape => exact absurd hc not_identChar_backslash
    | stop h2 => exact absurd (starts_cons.2 hc) h2
  | escape hv he _ ih =>
    cases h' with
    | char hc => exact absurd hc not_identChar_backslash
    | escape _ he' h2 =>
      obtain ⟨rfl, rfl⟩ := escaped_det he he'
      obtain ⟨rfl, rfl⟩ := ih h2
      exact ⟨rfl, rfl⟩
    | stop _ h2 => exact absurd hv h2
  | stop h1 h2 =>
    cases h' with
    | char hc => exact absurd (starts_cons.2 hc) h1
    | escape hv => exact absurd hv h2
    | stop => exact ⟨rfl, rfl⟩

theorem escaped_nil {c : Char} {r : Str} (h : Escaped [] c r) : r = [] := (escaped_det h .eof).2

/-- the rules for strings, one after the other -/
def StringStep (q : Char) (v : Str) (c : Char) (s : Str) (t : Token) (r : Str) : Prop :=
  if c = q then t = .quotedString v ∧ r = s
  else if c = '\n' then t = .badString [] ∧ r = c :: s
  else if c = '\\' then
    if s = [] then t = .quotedString v ∧ r = []
    else if s.head? = some '\n' then StringTail q v s.tail t r
    else ∃ d s', Escaped s d s' ∧ StringTail q (v ++ [d]) s' t r
  else StringTail q (v ++ [c]) s t r

theorem string_step {q : Char} (hq : q = '"' ∨ q = '\'') {v : Str} {c : Char} {s : Str} {t : Token} {r : Str}
    (h : StringTail q v (c :: s) t r) : StringStep q v c s t r := by
  have q1 : '\n' ≠ q := by rcases hq with rfl | rfl <;> decide
  have q2 : '\\' ≠ q := by rcases hq with rfl | rfl <;> decide
  have n1 : '\\' ≠ '\n' := by decide
  generalize hs : c :: s = s0 at h
  unfold StringStep
  cases h with
  | close => cases hs; rw [if_pos rfl]; exact ⟨rfl, rfl⟩
  | eof => cases hs
  | newline => cases hs; rw [if_neg q1, if_pos rfl]; exact ⟨rfl, rfl⟩
  | backslashEof => cases hs; rw [if_neg q2, if_neg n1, if_pos rfl, if_pos rfl]; exact ⟨rfl, rfl⟩
  | continuation h => cases hs; rw [if_neg q2, if_neg n1, if_pos rfl, if_neg (by simp), if_pos (by simp)]; exact h
  | escape h0 hv he h =>
    cases hs
    rw [if_neg q2, if_neg n1, if_pos rfl, if_neg h0, if_neg (validEscape_cons.1 hv).2]
    exact ⟨_, _, he, h⟩
  | other h1 h2 h3 h => cases hs; rw [if_neg h1, if_neg h2, if_neg h3]; exact h

theorem string_det {q : Char} (hq : q = '"' ∨ q = '\'') {v s r r' : Str} {t t' : Token} (h : StringTail q v s t r) (h' : StringTail q v s t' r') :
    t = t' ∧ r = r' := by
  have q1 : '\n' ≠ q := by rcases hq with rfl | rfl <;> decide
  have q2 : '\\' ≠ q := by rcases hq with rfl | rfl <;> decide
  have n1 : '\\' ≠ '\n' := by decide
  induction h generalizing t' r' with
  | close =>
    have := string_step hq h'
    rw [StringStep, if_pos rfl] at this
    exact ⟨this.1.symm, this.2.symm⟩
  | eof =>
    cases h'
    exact ⟨rfl, rfl⟩
  | newline =>
    have := string_step hq h'
    rw [StringStep, if_neg q1, if_pos rfl] at this
    exact ⟨this.1.symm, this.2.symm⟩
  | backslashEof =>
    have := string_step hq h'
    rw [StringStep, if_neg q2, if_neg n1, if_pos rfl, if_pos rfl] at this
    exact ⟨this.1.symm, this.2.symm⟩
  | continuation h ih =>
    have := string_step hq h'
    rw [StringStep, if_neg q2, if_neg n1, if_pos rfl, if_neg (by simp), if_pos (by simp)] at this
    exact ih this
  | escape h0 hv he h ih =>
    have := string_step hq h'
    rw [StringStep, if_neg q2, if_neg n1, if_pos rfl, if_neg h0, if_neg (validEscape_cons.1 hv).2] at this
    obtain ⟨d, s', he', h2⟩ := this
    obtain ⟨rfl, rfl⟩ := escaped_det he he'
    exact ih h2
  | other h1 h2 h3 h ih =>
    have := string_step hq h'
    rw [StringStep, if_neg h1, if_neg h2, if_neg h3] at this
    exact ih this

/-! ## Numbers -/

theorem sign_det {s a r a' r' : Str} (h : Sign s a r) (h' : Sign s a' r') : a = a' ∧ r = r' := by
  cases h with
  | some hc =>
    cases h' with
    | some => exact ⟨rfl, rfl⟩
    | none h => exact absurd (starts_cons.2 hc) h
  | none h =>
    cases h' with
    | some hc => exact absurd (starts_cons.2 hc) h
    | none => exact ⟨rfl, rfl⟩

theorem starts_append {P : Char → Prop} {a r : Str} (h0 : a ≠ []) (h : ∀ c ∈ a, P c) : Starts P (a ++ r) := by
  cases a with
  | nil => exact absurd rfl h0
  | cons c a => exact ⟨c, a ++ r, rfl, h c (by simp)⟩

theorem fraction_det {s a r a' r' : Str} (h : Fraction s a r) (h' : Fraction s a' r') : a = a' ∧ r = r' := by
  generalize hs : s = s0 at h'
  cases h with
  | some h0 hd =>
    cases h' with
    | some h0' hd' =>
      simp at hs
      obtain ⟨rfl, rfl⟩ := maximal_unique hs hd.1 hd'.1 hd.2 hd'.2
      exact ⟨rfl, rfl⟩
    | none h =>
      subst hs
      exact absurd ⟨_, rfl, starts_append h0 hd.1⟩ h
  | none h =>
    cases h' with
    | some h0' hd' =>
      subst hs
      exact absurd ⟨_, rfl, starts_append h0' hd'.1⟩ h
    | none => exact ⟨rfl, hs⟩

theorem not_digit_sign {c : Char} (h : Digit c) : '+' ≠ c ∧ '-' ≠ c ∧ c ≠ '+' ∧ c ≠ '-' := by
  refine ⟨?_, ?_, ?_, ?_⟩ <;> (rintro rfl; exact absurd h (by decide))

theorem exponent_det {s a r a' r' : Str} (h : Exponent s a r) (h' : Exponent s a' r') : a = a' ∧ r = r' := by
  generalize hs : s = s0 at h'
  cases h with
  | @some e sg ds r he hsg h0 hd =>
    cases h' with
    | @some e' sg' ds' r' he' hsg' h0' hd' =>
      have key : sg = sg' ∧ ds ++ r = ds' ++ r' := by
        simp only [List.cons.injEq] at hs
        obtain ⟨c, q, e1, hc⟩ := starts_append (r := r) h0 hd.1
        obtain ⟨c', q', e2, hc'⟩ := starts_append (r := r') h0' hd'.1
        have n1 := not_digit_sign hc
        have n2 := not_digit_sign hc'
        have := hs.2
        rw [List.append_assoc, List.append_assoc, e1, e2] at this
        rw [e1, e2]
        rcases hsg with rfl | rfl | rfl <;> rcases hsg' with rfl | rfl | rfl <;> simp_all
      obtain ⟨rfl, e1⟩ := key
      obtain ⟨rfl, rfl⟩ := maximal_unique e1 hd.1 hd'.1 hd.2 hd'.2
      simp at hs
      exact ⟨by rw [hs], rfl⟩
    | none h =>
      subst hs
      exact absurd ⟨e, sg, ds ++ r, by simp, he, hsg, starts_append h0 hd.1⟩ h
  | none h =>
    cases h' with
    | @some e sg ds r he hsg h0 hd =>
      subst hs
      exact absurd ⟨e, sg, _, by rw [List.append_assoc], he, hsg, starts_append h0 hd.1⟩ h
    | none => exact ⟨rfl, hs⟩

theorem number_det {s a r a' r' : Str} (h : Number s a r) (h' : Number s a' r') : a = a' ∧ r = r' := by
  cases h with
  | mk h1 h2 h3 h4 =>
    cases h' with
    | mk g1 g2 g3 g4 =>
      obtain ⟨rfl, rfl⟩ := sign_det h1 g1
      obtain ⟨rfl, rfl⟩ := maximal_unique (h2.1.symm.trans g2.1) h2.2.1 g2.2.1 h2.2.2 g2.2.2
      obtain ⟨rfl, rfl⟩ := fraction_det h3 g3
      obtain ⟨rfl, rfl⟩ := exponent_det h4 g4
      exact ⟨rfl, rfl⟩

theorem not_startsIdent_percent (r : Str) : ¬ StartsIdent ('%' :: r) := by
  rintro (h | h | ⟨_, h, _⟩)
  · exact absurd (starts_cons.1 h) (by decide)
  · exact absurd (validEscape_cons.1 h).1 (by decide)
  · cases h

theorem numeric_det {s r r' : Str} {t t' : Token} (h : Numeric s t r) (h' : Numeric s t' r') : t = t' ∧ r = r' := by
  cases h with
  | dimension hn hi hm =>
    cases h' with
    | dimension hn' hi' hm' =>
      obtain ⟨rfl, rfl⟩ := number_det hn hn'
      obtain ⟨rfl, rfl⟩ := name_det hm hm'
      exact ⟨rfl, rfl⟩
    | percentage hn' =>
      obtain ⟨rfl, rfl⟩ := number_det hn hn'
      exact absurd hi (not_startsIdent_percent _)
    | number hn' hi' =>
      obtain ⟨rfl, rfl⟩ := number_det hn hn'
      exact absurd hi hi'
  | percentage hn =>
    cases h' with
    | dimension hn' hi' hm' =>
      obtain ⟨rfl, rfl⟩ := number_det hn hn'
      exact absurd hi' (not_startsIdent_percent _)
    | percentage hn' =>
      obtain ⟨rfl, e⟩ := number_det hn hn'
      cases e
      exact ⟨rfl, rfl⟩
    | number hn' hi' hp =>
      obtain ⟨rfl, rfl⟩ := number_det hn hn'
      exact absurd rfl hp
  | number hn hi hp =>
    cases h' with
    | dimension hn' hi' hm' =>
      obtain ⟨rfl, rfl⟩ := number_det hn hn'
      exact absurd hi' hi
    | percentage hn' =>
      obtain ⟨rfl, rfl⟩ := number_det hn hn'
      exact absurd rfl hp
    | number hn' hi' =>
      obtain ⟨rfl, rfl⟩ := number_det hn hn'
      exact ⟨rfl, rfl⟩

/-! ## Urls -/

theorem remnants_det {s r r' : Str} (h : Remnants s r) (h' : Remnants s r') : r = r' := by
  induction h generalizing r' with
  | close =>
    cases h' with
    | close => rfl
    | other hc => exact absurd rfl hc
  | eof => cases h'; rfl
  | escape hv he _ ih =>
    cases h' with
    | escape _ he' h2 =>
      obtain ⟨rfl, rfl⟩ := escaped_det he he'
      exact ih h2
    | other _ hv' => exact absurd hv hv'
  | other hc hv _ ih =>
    cases h' with
    | close => exact absurd rfl hc
    | escape hv' => exact absurd hv' hv
    | other _ _ h2 => exact ih h2

theorem skips_det {s r r' : Str} (h : Skips s r) (h' : Skips s r') : r = r' := by
  obtain ⟨w, rfl, h1, h2⟩ := h
  obtain ⟨w', e, h1', h2'⟩ := h'
  exact (maximal_unique e h1 h1' h2 h2').2

theorem not_ws_bad {c : Char} (h : Whitespace c) : ¬ NotInUrl c := by
  have : ∀ c ∈ ['\n', '\t', ' '], ¬ NotInUrl c := by decide +kernel
  exact this c h

/-- the rules for urls, one after the other -/
def UrlStep (v : Str) (c : Char) (s : Str) (t : Token) (r : Str) : Prop :=
  if c = ')' then t = .url v ∧ r = s
  else if Whitespace c then
    ∃ s', Skips (c :: s) s' ∧ (s' = [] ∧ t = .url v ∧ r = [] ∨ s' = ')' :: r ∧ t = .url v ∨
      (s' ≠ [] ∧ s'.head? ≠ some ')') ∧ t = .badUrl [] ∧ Remnants s' r)
  else if NotInUrl c then t = .badUrl [] ∧ Remnants s r
  else if c = '\\' then (ValidEscape (c :: s) ∧ ∃ d s', Escaped s d s' ∧ Url (v ++ [d]) s' t r) ∨ (¬ ValidEscape (c :: s) ∧ t = .badUrl [] ∧ Remnants s r)
  else Url (v ++ [c]) s t r

theorem url_step {v : Str} {c : Char} {s : Str} {t : Token} {r : Str} (h : Url v (c :: s) t r) : UrlStep v c s t r := by
  generalize hs : c :: s = s0 at h
  have ws : ∀ {s'}, Starts Whitespace (c :: s') → c ≠ ')' ∧ Whitespace c := by
    intro s' h
    have := starts_cons.1 h
    exact ⟨by rintro rfl; exact absurd this (by decide), this⟩
  unfold UrlStep
  cases h with
  | close => cases hs; rw [if_pos rfl]; exact ⟨rfl, rfl⟩
  | eof => cases hs
  | space hw hk =>
    subst hs
    obtain ⟨h1, h2⟩ := ws hw
    rw [if_neg h1, if_pos h2]
    exact ⟨_, hk, .inr (.inl ⟨rfl, rfl⟩)⟩
  | spaceEof hw hk =>
    subst hs
    obtain ⟨h1, h2⟩ := ws hw
    rw [if_neg h1, if_pos h2]
    exact ⟨_, hk, .inl ⟨rfl, rfl, rfl⟩⟩
  | badSpace hw hk h0 h1' hr =>
    subst hs
    obtain ⟨h1, h2⟩ := ws hw
    rw [if_neg h1, if_pos h2]
    exact ⟨_, hk, .inr (.inr ⟨⟨h0, h1'⟩, rfl, hr⟩)⟩
  | bad hc hr =>
    cases hs
    rw [if_neg (by rintro rfl; exact absurd hc (by decide)), if_neg (fun h => not_ws_bad h hc), if_pos hc]
    exact ⟨rfl, hr⟩
  | escape hv he h =>
    cases hs
    rw [if_neg (by decide), if_neg (by decide), if_neg (by decide), if_pos rfl]
    exact .inl ⟨hv, _, _, he, h⟩
  | badEscape hv h =>
    cases hs
    rw [if_neg (by decide), if_neg (by decide), if_neg (by decide), if_pos rfl]
    exact .inr ⟨hv, rfl, h⟩
  | other h1 h2 h3 h4 h =>
    cases hs
    rw [if_neg h1, if_neg h2, if_neg h3, if_neg h4]
    exact h

theorem url_det {v s r r' : Str} {t t' : Token} (h : Url v s t r) (h' : Url v s t' r') : t = t' ∧ r = r' := by
  have space : ∀ {v s s' r r' : Str} {t' : Token}, Starts Whitespace s → Skips s s' → Url v s t' r' →
      (s' = [] ∧ t' = .url v ∧ r' = [] ∨ s' = ')' :: r' ∧ t' = .url v ∨
      (s' ≠ [] ∧ s'.head? ≠ some ')') ∧ t' = .badUrl [] ∧ Remnants s' r') := by
    rintro v s s' r r' t' ⟨c, q, rfl, hc⟩ hk h
    have := url_step h
    rw [UrlStep, if_neg (by rintro rfl; exact absurd hc (by decide)), if_pos hc] at this
    obtain ⟨s'', hk', h⟩ := this
    cases skips_det hk hk'
    exact h
  induction h generalizing t' r' with
  | close =>
    have := url_step h'
    rw [UrlStep, if_pos rfl] at this
    exact ⟨this.1.symm, this.2.symm⟩
  | eof =>
    cases h' with
    | eof => exact ⟨rfl, rfl⟩
    | space hw => exact absurd hw starts_nil
    | spaceEof hw => exact absurd hw starts_nil
    | badSpace hw => exact absurd hw starts_nil
  | space hw hk =>
    rcases space (r := []) hw hk h' with ⟨h, _⟩ | ⟨h, h2⟩ | ⟨⟨_, h⟩, _⟩
    · cases h
    · cases h; exact ⟨h2.symm, rfl⟩
    · exact absurd rfl h
  | spaceEof hw hk =>
    rcases space (r := []) hw hk h' with ⟨_, h1, h2⟩ | ⟨h, h2⟩ | ⟨⟨h, _⟩, _⟩
    · exact ⟨h1.symm, h2.symm⟩
    · cases h
    · exact absurd rfl h
  | badSpace hw hk h0 h1 hr =>
    rcases space (r := []) hw hk h' with ⟨h, _⟩ | ⟨h, h2⟩ | ⟨_, h, hr'⟩
    · exact absurd h h0
    · rw [h] at h1; exact absurd rfl h1
    · exact ⟨h.symm, remnants_det hr hr'⟩
  | bad hc hr =>
    have := url_step h'
    rw [UrlStep, if_neg (by rintro rfl; exact absurd hc (by decide)), if_neg (fun h => not_ws_bad h hc), if_pos hc] at this
    exact ⟨this.1.symm, remnants_det hr this.2⟩
  | escape hv he _ ih =>
    have := url_step h'
    rw [UrlStep, if_neg (by decide), if_neg (by decide), if_neg (by decide), if_pos rfl] at this
    rcases this with ⟨_, d, s', he', h2⟩ | ⟨hv', _⟩
    · obtain ⟨rfl, rfl⟩ := escaped_det he he'
      exact ih h2
    · exact absurd hv hv'
  | badEscape hv hr =>
    have := url_step h'
    rw [UrlStep, if_neg (by decide), if_neg (by decide), if_neg (by decide), if_pos rfl] at this
    rcases this with ⟨hv', _⟩ | ⟨_, h, hr'⟩
    · exact absurd hv' hv
    · exact ⟨h.symm, remnants_det hr hr'⟩
  | other h1 h2 h3 h4 _ ih =>
    have := url_step h'
    rw [UrlStep, if_neg h1, if_neg h2, if_neg h3, if_neg h4] at this
    exact ih this

/-! ## Names and what follows them -/

theorem skips_exists (r : Str) : ∃ w, Skips r w := by
  refine ⟨r.dropWhile (fun c => decide (Whitespace c)), r.takeWhile (fun c => decide (Whitespace c)), (List.takeWhile_append_dropWhile).symm, ?_, ?_⟩
  · intro c hc
    simpa using List.all_eq_true.1 List.all_takeWhile c hc
  · rintro ⟨c, q, e, hc⟩
    have := List.head?_dropWhile_not (fun c => decide (Whitespace c)) r
    rw [e] at this
    simp [hc] at this

/-- the last of the white space is kept before a quote -/
theorem kept_det {r a b : Str}
    (h : a = r ∧ ¬ Starts Whitespace r ∨ ∃ c w, Whitespace c ∧ a = c :: w ∧ ¬ Starts Whitespace w ∧ ∃ u, r = u ++ a ∧ ∀ x ∈ u, Whitespace x)
    (h' : b = r ∧ ¬ Starts Whitespace r ∨ ∃ c w, Whitespace c ∧ b = c :: w ∧ ¬ Starts Whitespace w ∧ ∃ u, r = u ++ b ∧ ∀ x ∈ u, Whitespace x) :
    a = b := by
  have st : ∀ {c : Char} {u w : Str}, Whitespace c → (∀ x ∈ u, Whitespace x) → Starts Whitespace (u ++ c :: w) := by
    intro c u w hc hu
    cases u with
    | nil => exact starts_cons.2 hc
    | cons x u => exact starts_cons.2 (hu x (by simp))
  rcases h with ⟨rfl, hn⟩ | ⟨c, w, hc, rfl, hw, u, rfl, hu⟩
  · rcases h' with ⟨rfl, _⟩ | ⟨c, w, hc, rfl, hw, u, rfl, hu⟩
    · rfl
    · exact absurd (st hc hu) hn
  · rcases h' with ⟨rfl, hn⟩ | ⟨c', w', hc', rfl, hw', u', e, hu'⟩
    · exact absurd (st hc hu) hn
    · have e' : (u ++ [c]) ++ w = (u' ++ [c']) ++ w' := by simpa using e
      obtain ⟨e1, rfl⟩ := maximal_unique (P := Whitespace) e'
        (by intro x hx; rcases List.mem_append.1 hx with hx | hx; exacts [hu x hx, by simp at hx; exact hx ▸ hc])
        (by intro x hx; rcases List.mem_append.1 hx with hx | hx; exacts [hu' x hx, by simp at hx; exact hx ▸ hc']) hw hw'
      have := (List.append_inj' e1 rfl).2
      simp at this
      rw [this]

theorem identLike_det {s r r' : Str} {t t' : Token} (h : IdentLike s t r) (h' : IdentLike s t' r') : t = t' ∧ r = r' := by
  cases h with
  | quotedUrl hn hu hw hq =>
    cases h' with
    | quotedUrl hn' hu' hw' hq' =>
      obtain ⟨rfl, e⟩ := name_det hn hn'
      cases e
      exact ⟨rfl, kept_det hw hw'⟩
    | url hn' hu' hs' hq' ht' =>
      obtain ⟨rfl, e⟩ := name_det hn hn'
      cases e
      obtain ⟨w, hw, hq⟩ := hq
      cases skips_det hw hs'
      rcases hq with h | h
      · exact absurd h hq'.1
      · exact absurd h hq'.2
    | function hn' hu' =>
      obtain ⟨rfl, e⟩ := name_det hn hn'
      exact absurd hu hu'
    | ident hn' hp' =>
      obtain ⟨rfl, rfl⟩ := name_det hn hn'
      exact absurd rfl hp'
  | url hn hu hs hq ht =>
    cases h' with
    | quotedUrl hn' hu' hw' hq' =>
      obtain ⟨rfl, e⟩ := name_det hn hn'
      cases e
      obtain ⟨w, hw, hq'⟩ := hq'
      cases skips_det hw hs
      rcases hq' with h | h
      · exact absurd h hq.1
      · exact absurd h hq.2
    | url hn' hu' hs' hq' ht' =>
      obtain ⟨rfl, e⟩ := name_det hn hn'
      cases e
      cases skips_det hs hs'
      exact url_det ht ht'
    | function hn' hu' =>
      obtain ⟨rfl, e⟩ := name_det hn hn'
      exact absurd hu hu'
    | ident hn' hp' =>
      obtain ⟨rfl, rfl⟩ := name_det hn hn'
      exact absurd rfl hp'
  | function hn hu =>
    cases h' with
    | quotedUrl hn' hu' =>
      obtain ⟨rfl, e⟩ := name_det hn hn'
      exact absurd hu' hu
    | url hn' hu' =>
      obtain ⟨rfl, e⟩ := name_det hn hn'
      exact absurd hu' hu
    | function hn' hu' =>
      obtain ⟨rfl, e⟩ := name_det hn hn'
      cases e
      exact ⟨rfl, rfl⟩
    | ident hn' hp' =>
      obtain ⟨rfl, rfl⟩ := name_det hn hn'
      exact absurd rfl hp'
  | ident hn hp =>
    cases h' with
    | quotedUrl hn' hu' =>
      obtain ⟨rfl, rfl⟩ := name_det hn hn'
      exact absurd rfl hp
    | url hn' hu' =>
      obtain ⟨rfl, rfl⟩ := name_det hn hn'
      exact absurd rfl hp
    | function hn' hu' =>
      obtain ⟨rfl, rfl⟩ := name_det hn hn'
      exact absurd rfl hp
    | ident hn' hp' =>
      obtain ⟨rfl, rfl⟩ := name_det hn hn'
      exact ⟨rfl, rfl⟩

/-! ## Tokens -/

/-- the rules for a token, one after the other -/
def Step (c : Char) (s : Str) (t : Token) (r : Str) : Prop :=
  if Whitespace c then t = .whitespace ∧ Skips (c :: s) r
  else if c = '"' ∨ c = '\'' then StringTail c [] s t r
  else if c = '#' then ((Starts IdentChar s ∨ ValidEscape s) ∧ ∃ v, t = .hash v ∧ Name s v r) ∨
    (¬ (Starts IdentChar s ∨ ValidEscape s) ∧ t = .delim c ∧ r = s)
  else if c ∈ punctuation.map (·.1) then (c, t) ∈ punctuation ∧ r = s
  else if c = '+' ∨ c = '.' then (StartsNumber (c :: s) ∧ Numeric (c :: s) t r) ∨ (¬ StartsNumber (c :: s) ∧ t = .delim c ∧ r = s)
  else if c = '-' then (StartsNumber (c :: s) ∧ Numeric (c :: s) t r) ∨ (¬ StartsNumber (c :: s) ∧
    ((s = '-' :: '>' :: r ∧ t = .cdc) ∨ (¬ "->".toList <+: s ∧ ((StartsIdent (c :: s) ∧ IdentLike (c :: s) t r) ∨
      (¬ StartsIdent (c :: s) ∧ t = .delim c ∧ r = s)))))
  else if c = '<' then (s = '!' :: '-' :: '-' :: r ∧ t = .cdo) ∨ (¬ "!--".toList <+: s ∧ t = .delim c ∧ r = s)
  else if c = '@' then (StartsIdent s ∧ ∃ v, t = .atKeyword v ∧ Name s v r) ∨ (¬ StartsIdent s ∧ t = .delim c ∧ r = s)
  else if c = '\\' then (ValidEscape (c :: s) ∧ IdentLike (c :: s) t r) ∨ (¬ ValidEscape (c :: s) ∧ t = .delim c ∧ r = s)
  else if Digit c then Numeric (c :: s) t r
  else if IdentStart c then IdentLike (c :: s) t r
  else t = .delim c ∧ r = s

theorem not_number_cdc (s : Str) : ¬ StartsNumber ('-' :: '-' :: s) := by
  rintro ((h | ⟨_, h, _⟩) | ⟨_, _, h, _, h' | ⟨_, h', _⟩⟩)
  · exact absurd (starts_cons.1 h) (by decide)
  · cases h
  · cases h; exact absurd (starts_cons.1 h') (by decide)
  · cases h; cases h'

theorem punct_of {c : Char} {t : Token} (h : (c, t) ∈ punctuation) : c ∈ punctuation.map (·.1) := List.mem_map.2 ⟨_, h, rfl⟩

theorem punct_else {c : Char} (h : c ∈ punctuation.map (·.1)) : ¬ Whitespace c ∧ ¬ (c = '"' ∨ c = '\'') ∧ c ≠ '#' := by
  revert c
  decide +kernel

theorem digit_else {c : Char} (h : Digit c) : ¬ Whitespace c ∧ ¬ (c = '"' ∨ c = '\'') ∧ c ≠ '#' ∧ c ∉ punctuation.map (·.1) ∧
    ¬ (c = '+' ∨ c = '.') ∧ c ≠ '-' ∧ c ≠ '<' ∧ c ≠ '@' ∧ c ≠ '\\' := by
  have : ∀ c ∈ digits, ¬ Whitespace c ∧ ¬ (c = '"' ∨ c = '\'') ∧ c ≠ '#' ∧ c ∉ punctuation.map (·.1) ∧
    ¬ (c = '+' ∨ c = '.') ∧ c ≠ '-' ∧ c ≠ '<' ∧ c ≠ '@' ∧ c ≠ '\\' := by decide +kernel
  exact this c h

theorem identStart_else {c : Char} (h : IdentStart c) : ¬ Whitespace c ∧ ¬ (c = '"' ∨ c = '\'') ∧ c ≠ '#' ∧ c ∉ punctuation.map (·.1) ∧
    ¬ (c = '+' ∨ c = '.') ∧ c ≠ '-' ∧ c ≠ '<' ∧ c ≠ '@' ∧ c ≠ '\\' ∧ ¬ Digit c := by
  have : ∀ c ∈ ['\n', '\t', ' ', '"', '\'', '#', '+', '.', '-', '<', '@', '\\'] ++ punctuation.map (·.1) ++ digits, ¬ IdentStart c := by decide +kernel
  refine ⟨?_, ?_, ?_, ?_, ?_, ?_, ?_, ?_, ?_, ?_⟩
  · intro hw
    have hw : c ∈ ['\n', '\t', ' '] := hw
    exact this c (by simp only [List.mem_cons, List.mem_append, List.not_mem_nil, or_false] at hw ⊢; tauto) h
  · intro hw; exact this c (by simp only [List.mem_cons, List.mem_append]; tauto) h
  · intro hw; exact this c (by simp only [List.mem_cons, List.mem_append]; tauto) h
  · intro hw; exact this c (by simp only [List.mem_append]; tauto) h
  · intro hw; exact this c (by simp only [List.mem_cons, List.mem_append]; tauto) h
  · intro hw; exact this c (by simp only [List.mem_cons, List.mem_append]; tauto) h
  · intro hw; exact this c (by simp only [List.mem_cons, List.mem_append]; tauto) h
  · intro hw; exact this c (by simp only [List.mem_cons, List.mem_append]; tauto) h
  · intro hw; exact this c (by simp only [List.mem_cons, List.mem_append]; tauto) h
  · intro hw
    have hw : c ∈ digits := hw
    exact this c (by simp only [List.mem_append]; tauto) h

theorem consume_step {c : Char} {s : Str} {t : Token} {r : Str} (h : Consume (c :: s) t r) : Step c s t r := by
  generalize hs : c :: s = s0 at h
  unfold Step
  cases h with
  | eof => cases hs
  | whitespace hw hk => subst hs; rw [if_pos (starts_cons.1 hw)]; exact ⟨rfl, hk⟩
  | string hq h =>
    cases hs
    rw [if_neg (by rcases hq with rfl | rfl <;> decide), if_pos hq]
    exact h
  | hash hi h =>
    cases hs
    rw [if_neg (by decide), if_neg (by decide), if_pos rfl]
    exact .inl ⟨hi, _, rfl, h⟩
  | hashDelim hi =>
    cases hs
    rw [if_neg (by decide), if_neg (by decide), if_pos rfl]
    exact .inr ⟨hi, rfl, rfl⟩
  | punctuation h =>
    cases hs
    have h1 := punct_of h
    have h2 := punct_else h1
    rw [if_neg h2.1, if_neg h2.2.1, if_neg h2.2.2, if_pos h1]
    exact ⟨h, rfl⟩
  | numeric hc hn h =>
    cases hs
    rcases hc with rfl | rfl | rfl | hc
    · rw [if_neg (by decide), if_neg (by decide), if_neg (by decide), if_neg (by decide), if_pos (by decide)]
      exact .inl ⟨hn, h⟩
    · rw [if_neg (by decide), if_neg (by decide), if_neg (by decide), if_neg (by decide), if_pos (by decide)]
      exact .inl ⟨hn, h⟩
    · rw [if_neg (by decide), if_neg (by decide), if_neg (by decide), if_neg (by decide), if_neg (by decide), if_pos rfl]
      exact .inl ⟨hn, h⟩
    · obtain ⟨h1, h2, h3, h4, h5, h6, h7, h8, h9⟩ := digit_else hc
      rw [if_neg h1, if_neg h2, if_neg h3, if_neg h4, if_neg h5, if_neg h6, if_neg h7, if_neg h8, if_neg h9, if_pos hc]
      exact h
  | delim hc hn =>
    cases hs
    rcases hc with rfl | rfl
    · rw [if_neg (by decide), if_neg (by decide), if_neg (by decide), if_neg (by decide), if_pos (by decide)]
      exact .inr ⟨hn, rfl, rfl⟩
    · rw [if_neg (by decide), if_neg (by decide), if_neg (by decide), if_neg (by decide), if_pos (by decide)]
      exact .inr ⟨hn, rfl, rfl⟩
  | cdc =>
    cases hs
    rw [if_neg (by decide), if_neg (by decide), if_neg (by decide), if_neg (by decide), if_neg (by decide), if_pos rfl]
    exact .inr ⟨not_number_cdc _, .inl ⟨rfl, rfl⟩⟩
  | minusIdent hn hc hi h =>
    cases hs
    rw [if_neg (by decide), if_neg (by decide), if_neg (by decide), if_neg (by decide), if_neg (by decide), if_pos rfl]
    exact .inr ⟨hn, .inr ⟨hc, .inl ⟨hi, h⟩⟩⟩
  | minusDelim hn hc hi =>
    cases hs
    rw [if_neg (by decide), if_neg (by decide), if_neg (by decide), if_neg (by decide), if_neg (by decide), if_pos rfl]
    exact .inr ⟨hn, .inr ⟨hc, .inr ⟨hi, rfl, rfl⟩⟩⟩
  | cdo =>
    cases hs
    rw [if_neg (by decide), if_neg (by decide), if_neg (by decide), if_neg (by decide), if_neg (by decide), if_neg (by decide), if_pos rfl]
    exact .inl ⟨rfl, rfl⟩
  | lessDelim hc =>
    cases hs
    rw [if_neg (by decide), if_neg (by decide), if_neg (by decide), if_neg (by decide), if_neg (by decide), if_neg (by decide), if_pos rfl]
    exact .inr ⟨hc, rfl, rfl⟩
  | atKeyword hi h =>
    cases hs
    rw [if_neg (by decide), if_neg (by decide), if_neg (by decide), if_neg (by decide), if_neg (by decide), if_neg (by decide), if_neg (by decide), if_pos rfl]
    exact .inl ⟨hi, _, rfl, h⟩
  | atDelim hi =>
    cases hs
    rw [if_neg (by decide), if_neg (by decide), if_neg (by decide), if_neg (by decide), if_neg (by decide), if_neg (by decide), if_neg (by decide), if_pos rfl]
    exact .inr ⟨hi, rfl, rfl⟩
  | backslash hv h =>
    cases hs
    rw [if_neg (by decide), if_neg (by decide), if_neg (by decide), if_neg (by decide), if_neg (by decide), if_neg (by decide), if_neg (by decide),
      if_neg (by decide), if_pos rfl]
    exact .inl ⟨hv, h⟩
  | backslashDelim hv =>
    cases hs
    rw [if_neg (by decide), if_neg (by decide), if_neg (by decide), if_neg (by decide), if_neg (by decide), if_neg (by decide), if_neg (by decide),
      if_neg (by decide), if_pos rfl]
    exact .inr ⟨hv, rfl, rfl⟩
  | ident hc h =>
    cases hs
    obtain ⟨h1, h2, h3, h4, h5, h6, h7, h8, h9, h10⟩ := identStart_else hc
    rw [if_neg h1, if_neg h2, if_neg h3, if_neg h4, if_neg h5, if_neg h6, if_neg h7, if_neg h8, if_neg h9, if_neg h10, if_pos hc]
    exact h
  | other h1 h2 h3 h4 h5 =>
    cases hs
    rw [if_neg h1, if_neg (fun h => h2 (by rcases h with rfl | rfl <;> decide)), if_neg (fun h => h2 (by subst h; decide)), if_neg h3,
      if_neg (fun h => h2 (by rcases h with rfl | rfl <;> decide)), if_neg (fun h => h2 (by subst h; decide)),
      if_neg (fun h => h2 (by subst h; decide)), if_neg (fun h => h2 (by subst h; decide)), if_neg (fun h => h2 (by subst h; decide)),
      if_neg h4, if_neg h5]
    exact ⟨rfl, rfl⟩

theorem or_det {A : Prop} {B C : Token → Str → Prop} {t t' : Token} {r r' : Str} (h : (A ∧ B t r) ∨ (¬ A ∧ C t r))
    (h' : (A ∧ B t' r') ∨ (¬ A ∧ C t' r')) (hB : B t r → B t' r' → t = t' ∧ r = r') (hC : C t r → C t' r' → t = t' ∧ r = r') :
    t = t' ∧ r = r' := by
  rcases h with ⟨a, h⟩ | ⟨a, h⟩ <;> rcases h' with ⟨a', h'⟩ | ⟨a', h'⟩
  · exact hB h h'
  · exact absurd a a'
  · exact absurd a' a
  · exact hC h h'

theorem both_det {a : Token} {s : Str} {t t' : Token} {r r' : Str} (h : t = a ∧ r = s) (h' : t' = a ∧ r' = s) : t = t' ∧ r = r' :=
  ⟨h.1.trans h'.1.symm, h.2.trans h'.2.symm⟩

theorem named_det {f : Str → Token} {s : Str} {t t' : Token} {r r' : Str} (h : ∃ v, t = f v ∧ Name s v r) (h' : ∃ v, t' = f v ∧ Name s v r') :
    t = t' ∧ r = r' := by
  obtain ⟨v, rfl, h⟩ := h
  obtain ⟨v', rfl, h'⟩ := h'
  obtain ⟨rfl, rfl⟩ := name_det h h'
  exact ⟨rfl, rfl⟩

theorem punct_det {c : Char} {t t' : Token} (h : (c, t) ∈ punctuation) (h' : (c, t') ∈ punctuation) : t = t' := by
  have : ∀ p ∈ punctuation, ∀ q ∈ punctuation, p.1 = q.1 → p.2 = q.2 := by decide +kernel
  exact this _ h _ h' rfl

theorem step_det {c : Char} {s r r' : Str} {t t' : Token} (h : Step c s t r) (h' : Step c s t' r') : t = t' ∧ r = r' := by
  unfold Step at h h'
  by_cases c1 : Whitespace c
  · rw [if_pos c1] at h h'; exact ⟨h.1.trans h'.1.symm, skips_det h.2 h'.2⟩
  rw [if_neg c1] at h h'
  by_cases c2 : c = '"' ∨ c = '\''
  · rw [if_pos c2] at h h'; exact string_det c2 h h'
  rw [if_neg c2] at h h'
  by_cases c3 : c = '#'
  · rw [if_pos c3] at h h'
    exact or_det (B := fun t r => ∃ v, t = .hash v ∧ Name s v r) (C := fun t r => t = .delim c ∧ r = s) h h' named_det both_det
  rw [if_neg c3] at h h'
  by_cases c4 : c ∈ punctuation.map (·.1)
  · rw [if_pos c4] at h h'; exact ⟨punct_det h.1 h'.1, h.2.trans h'.2.symm⟩
  rw [if_neg c4] at h h'
  by_cases c5 : c = '+' ∨ c = '.'
  · rw [if_pos c5] at h h'
    exact or_det (B := fun t r => Numeric (c :: s) t r) (C := fun t r => t = .delim c ∧ r = s) h h' numeric_det both_det
  rw [if_neg c5] at h h'
  by_cases c6 : c = '-'
  · rw [if_pos c6] at h h'
    refine or_det (B := fun t r => Numeric (c :: s) t r) (C := fun t r =>
      ((s = '-' :: '>' :: r ∧ t = .cdc) ∨ (¬ "->".toList <+: s ∧ ((StartsIdent (c :: s) ∧ IdentLike (c :: s) t r) ∨
      (¬ StartsIdent (c :: s) ∧ t = .delim c ∧ r = s))))) h h' numeric_det ?_
    rintro (⟨e, e2⟩ | ⟨hn, hh⟩) (⟨e', e2'⟩ | ⟨hn', hh'⟩)
    · rw [e] at e'
      cases e'
      exact ⟨e2.trans e2'.symm, rfl⟩
    · exact absurd ⟨_, e.symm⟩ hn'
    · exact absurd ⟨_, e'.symm⟩ hn
    · exact or_det (B := fun t r => IdentLike (c :: s) t r) (C := fun t r => t = .delim c ∧ r = s) hh hh' identLike_det both_det
  rw [if_neg c6] at h h'
  by_cases c7 : c = '<'
  · rw [if_pos c7] at h h'
    rcases h with ⟨e, e2⟩ | ⟨hn, hh⟩ <;> rcases h' with ⟨e', e2'⟩ | ⟨hn', hh'⟩
    · rw [e] at e'
      cases e'
      exact ⟨e2.trans e2'.symm, rfl⟩
    · exact absurd ⟨_, e.symm⟩ hn'
    · exact absurd ⟨_, e'.symm⟩ hn
    · exact both_det hh hh'
  rw [if_neg c7] at h h'
  by_cases c8 : c = '@'
  · rw [if_pos c8] at h h'
    exact or_det (B := fun t r => ∃ v, t = .atKeyword v ∧ Name s v r) (C := fun t r => t = .delim c ∧ r = s) h h' named_det both_det
  rw [if_neg c8] at h h'
  by_cases c9 : c = '\\'
  · rw [if_pos c9] at h h'
    exact or_det (B := fun t r => IdentLike (c :: s) t r) (C := fun t r => t = .delim c ∧ r = s) h h' identLike_det both_det
  rw [if_neg c9] at h h'
  by_cases c10 : Digit c
  · rw [if_pos c10] at h h'; exact numeric_det h h'
  rw [if_neg c10] at h h'
  by_cases c11 : IdentStart c
  · rw [if_pos c11] at h h'; exact identLike_det h h'
  rw [if_neg c11] at h h'
  exact both_det h h'

theorem consume_det {s r r' : Str} {t t' : Token} (h : Consume s t r) (h' : Consume s t' r') : t = t' ∧ r = r' := by
  cases s with
  | nil =>
    have nil : ∀ {t r}, Consume [] t r → t = .eof ∧ r = [] := by
      intro t r h
      cases h with
      | eof => exact ⟨rfl, rfl⟩
      | whitespace hw => exact absurd hw starts_nil
    obtain ⟨rfl, rfl⟩ := nil h
    obtain ⟨rfl, rfl⟩ := nil h'
    exact ⟨rfl, rfl⟩
  | cons c s => exact step_det (consume_step h) (consume_step h')

/-! ## Comments -/

theorem first_end {c c' s s' : Str} (h : c ++ "*/".toList ++ s = c' ++ "*/".toList ++ s') (hc : ¬ "*/".toList <:+: c ++ ['*'])
    (hc' : ¬ "*/".toList <:+: c' ++ ['*']) : c = c' ∧ s = s' := by
  have key : ∀ {c c' s s' : Str}, c ++ "*/".toList ++ s = c' ++ "*/".toList ++ s' → ¬ "*/".toList <:+: c' ++ ['*'] → ¬ c.length < c'.length := by
    intro c c' s s' h hc' hl
    have h1 : c ++ "*/".toList <+: c' ++ "*/".toList ++ s' := ⟨s, h⟩
    have h2 : c' ++ ['*'] <+: c' ++ "*/".toList ++ s' := ⟨'/' :: s', by simp⟩
    have h3 := List.prefix_of_prefix_length_le h1 h2 (by simp; omega)
    exact hc' ((List.suffix_append c "*/".toList).isInfix.trans h3.isInfix)
  have e : c.length = c'.length := by
    have a := key h hc'
    have b := key h.symm hc
    omega
  rw [List.append_assoc, List.append_assoc] at h
  obtain ⟨rfl, e2⟩ := List.append_inj h e
  exact ⟨rfl, List.append_cancel_left e2⟩

theorem comments_det {s r r' : Str} (h : Comments s r) (h' : Comments s r') : r = r' := by
  induction h generalizing r' with
  | @comment c s r hc h ih =>
    generalize hs : "/*".toList ++ c ++ "*/".toList ++ s = s0 at h'
    cases h' with
    | comment hc' h2 =>
      simp only [List.append_assoc] at hs
      have hs := List.append_cancel_left hs
      simp only [← List.append_assoc] at hs
      obtain ⟨rfl, rfl⟩ := first_end hs hc hc'
      exact ih h2
    | «open» hc' =>
      simp only [List.append_assoc] at hs
      have hs := List.append_cancel_left hs
      subst hs
      exact absurd ⟨c, s, by simp⟩ hc'
    | none hn =>
      subst hs
      exact absurd ⟨c ++ "*/".toList ++ s, by simp⟩ hn
  | @«open» c hc =>
    generalize hs : "/*".toList ++ c = s0 at h'
    cases h' with
    | @comment c' s' _ hc' h2 =>
      simp only [List.append_assoc] at hs
      have hs := List.append_cancel_left hs
      subst hs
      exact absurd ⟨c', s', by simp⟩ hc
    | «open» hc' => rfl
    | none hn =>
      subst hs
      exact absurd ⟨c, rfl⟩ hn
  | none hn =>
    cases h' with
    | comment => exact absurd ⟨_, by simp only [List.append_assoc]; rfl⟩ hn
    | «open» => exact absurd ⟨_, rfl⟩ hn
    | none => rfl

theorem next_det {s r r' : Str} {t t' : Token} (h : Next s t r) (h' : Next s t' r') : t = t' ∧ r = r' := by
  obtain ⟨q, h1, h2⟩ := h
  obtain ⟨q', h1', h2'⟩ := h'
  cases comments_det h1 h1'
  exact consume_det h2 h2'

theorem tokens_det {s : Str} {ts ts' : List Token} (h : Tokens s ts) (h' : Tokens s ts') : ts = ts' := by
  induction h generalizing ts' with
  | eof h =>
    cases h' with
    | eof => rfl
    | next h2 ht => exact absurd (next_det h h2).1.symm ht
  | next h ht _ ih =>
    cases h' with
    | eof h2 => exact absurd (next_det h h2).1 ht
    | next h2 _ hs =>
      obtain ⟨rfl, rfl⟩ := next_det h h2
      rw [ih hs]

end Verif.CssTok
