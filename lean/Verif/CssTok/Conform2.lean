import Verif.CssTok.Conform

/-! # Urls, tokens and whole texts -/

namespace Verif.CssTok

open Standard

/-! ## White space -/

theorem skips_ok {env : Env} {s : Str} (ht : ∀ c ∈ s, Plain env c) : Skips s (env.skipWs s) := by
  refine ⟨s.takeWhile env.isWs, (List.takeWhile_append_dropWhile).symm, ?_, ?_⟩
  · intro c hc
    exact (isWs_iff (ht c ((List.takeWhile_prefix _).subset hc))).1 (List.all_eq_true.1 List.all_takeWhile c hc)
  · rintro ⟨c, q, e, hc⟩
    have := List.head?_dropWhile_not env.isWs s
    have hm : c ∈ s := (List.dropWhile_suffix env.isWs).subset (by rw [show List.dropWhile env.isWs s = c :: q from e]; simp)
    rw [show List.dropWhile env.isWs s = c :: q from e] at this
    simp [(isWs_iff (ht c hm)).2 hc] at this

theorem skipWs_of_ws {env : Env} {a s : Str} (ha : ∀ c ∈ a, Whitespace c) : env.skipWs (a ++ s) = env.skipWs s := by
  induction a with
  | nil => rfl
  | cons c a ih =>
    have hc : env.isWs c = true := (isWs_ascii env (ws_small (ha c (by simp)))).2 (.inl (ha c (by simp)))
    simp only [Env.skipWs, List.cons_append, List.dropWhile_cons, hc, if_true]
    exact ih (fun c h => ha c (by simp [h]))

theorem skipWs_of_not {env : Env} {c : Char} {s : Str} (hp : Plain env c) (h : ¬ Whitespace c) : env.skipWs (c :: s) = c :: s := by
  have : env.isWs c = false := by
    rw [← Bool.not_eq_true, isWs_iff hp]
    exact h
  simp [Env.skipWs, this]

theorem skipWs_end {env : Env} {d : Str} (h : d = [] ∨ d.head? = some ')') : env.skipWs d = d := by
  rcases h with rfl | h
  · rfl
  · cases d with
    | nil => simp at h
    | cons c d =>
      simp at h
      subst h
      exact skipWs_of_not (env := env) (s := d) ⟨by decide, by decide, by decide, by decide, fun h => absurd h (by decide)⟩ (by decide)

/-! ## Urls -/

/-- what may stand in a url -/
def UrlChar (x : Char) : Prop := ¬ Whitespace x ∧ ¬ NotInUrl x ∧ x ≠ ')' ∧ x ≠ '\\'

theorem url_end {env : Env} {n : Nat} {d u : Str} {t : Token} {r : Str} (hd : d = [] ∨ d.head? = some ')')
    (h : env.url n d u = some (t, r)) : t = .url u ∧ (d = [] ∧ r = [] ∨ d = ')' :: r) := by
  cases n with
  | zero => simp [Env.url] at h
  | succ n =>
    rw [Env.url] at h
    rcases hd with rfl | hd
    · simp at h
      exact ⟨h.1.symm, .inl ⟨rfl, h.2⟩⟩
    · cases d with
      | nil => simp at hd
      | cons c d =>
        simp at hd
        subst hd
        rw [nextChar_cons (by decide)] at h
        simp at h
        exact ⟨h.1.symm, .inr (by rw [h.2])⟩

theorem url_ok {env : Env} {n : Nat} {b c d u : Str} {t : Token} {r : Str} (hp : ∀ x ∈ b ++ c ++ d, Plain env x) (hb : ∀ x ∈ b, UrlChar x)
    (hc : ∀ x ∈ c, Whitespace x) (hd : d = [] ∨ d.head? = some ')') (h : env.url n (b ++ c ++ d) u = some (t, r)) :
    Url u (b ++ c ++ d) (bare t) r := by
  induction b generalizing n u with
  | nil =>
    simp only [List.nil_append] at h hp ⊢
    cases c with
    | nil =>
      obtain ⟨rfl, ⟨rfl, rfl⟩ | rfl⟩ := url_end hd h
      · exact .eof
      · exact .close
    | cons w c =>
      have hw : Whitespace w := hc w (by simp)
      have hws : env.isWs w = true := (isWs_iff (hp w (by simp))).2 hw
      have hw' : w ≠ ')' := by rintro rfl; exact absurd hw (by decide)
      cases n with
      | zero => simp [Env.url] at h
      | succ n =>
        rw [Env.url] at h
        rw [if_neg (by simpa using hw'), if_neg (by simp), if_pos (by simpa using hws), skipWs_of_ws hc, skipWs_end hd] at h
        have hsk : Skips (w :: c ++ d) d := by
          refine ⟨w :: c, rfl, hc, ?_⟩
          rintro ⟨x, q, rfl, hx⟩
          rcases hd with hd | hd
          · cases hd
          · simp at hd
            subst hd
            exact absurd hx (by decide)
        obtain ⟨rfl, ⟨rfl, rfl⟩ | rfl⟩ := url_end hd h
        · exact .spaceEof (starts_cons.2 hw) hsk
        · exact .space (starts_cons.2 hw) hsk
  | cons x b ih =>
    cases n with
    | zero => simp [Env.url] at h
    | succ n =>
      obtain ⟨h1, h2, h3, h4⟩ := hb x (by simp)
      have hpx := hp x (by simp)
      have hws : ¬ env.isWs x = true := by rw [isWs_iff hpx]; exact h1
      have hbad : ¬ (x = '"' ∨ x = '\'' ∨ x = '(' ∨ nonPrintable x = true) := by rw [nonPrintable_iff]; exact h2
      rw [Env.url] at h
      simp only [List.cons_append] at h ⊢
      rw [if_neg (by simpa using h3), if_neg (by simp), if_neg (by simpa using hws), if_neg (by simpa [or_assoc] using hbad),
        if_neg (by rw [isEscape_iff, validEscape_cons]; exact fun h => h4 h.1), nextChar_cons hpx.1] at h
      exact .other h3 h1 h2 h4 (ih (fun y hy => hp y (by simpa using Or.inr (by simpa using hy))) (fun y hy => hb y (by simp [hy])) h)

/-! ## Names and what follows them -/

theorem isUrl_url : isUrl "url".toList := by
  show List.map _ _ = _
  decide +kernel

theorem identLike_ok {env : Env} {n : Nat} {s : Str} {t : Token} {r : Str} (ht : Tame env s) (h : env.identLike n s = some (t, r)) :
    IdentLike s (bare t) r := by
  unfold Env.identLike at h
  rw [Option.bind_eq_some_iff] at h
  obtain ⟨⟨v, q⟩, e, h⟩ := h
  obtain ⟨v', hv', hn⟩ := ident_name ht e
  rw [List.nil_append] at hv'
  subst hv'
  have hq := ht.suffix (name_suffix hn)
  simp only at h
  split_ifs at h with h1 h2 h3
  · -- `url(` and a quote
    simp only [Bool.and_eq_true, decide_eq_true_eq] at h1
    obtain ⟨rfl, h1⟩ := h1
    cases q with
    | nil => simp at h1
    | cons c q =>
      simp at h1
      subst h1
      rw [nextChar_cons (by decide)] at h h2
      simp only at h h2
      cases h
      rcases (ht.url s _ q (List.suffix_refl _) hn isUrl_url).2 with hquote | ⟨a, b, c, d, rfl, hac, hb, hd⟩
      · cases q with
        | nil => simp at hquote
        | cons x q =>
          have hx : ¬ Whitespace x := by
            rcases hquote with h | h <;> simp at h <;> subst h <;> decide
          rw [skipWs_of_not (hq.plain x (by simp)) hx]
          refine .quotedUrl hn isUrl_url (.inl ⟨rfl, fun h => hx (starts_cons.1 h)⟩) ⟨x :: q, ⟨[], rfl, by simp, fun h => hx (starts_cons.1 h)⟩, hquote⟩
      · exfalso
        have hp : ∀ x ∈ a ++ b ++ c ++ d, Plain env x := fun x hx => hq.plain x (by simp only [List.mem_cons]; exact .inr hx)
        rw [List.append_assoc, List.append_assoc, skipWs_of_ws (fun x hx => hac x (by simp [hx]))] at h2
        cases b with
        | nil =>
          rw [List.nil_append, skipWs_of_ws (fun x hx => hac x (by simp [hx])), skipWs_end hd] at h2
          rcases hd with rfl | hd
          · simp at h2
          · rw [← List.head?_eq_getElem?, hd] at h2
            simp at h2
        | cons x b =>
          obtain ⟨hw, hni, _, _⟩ := hb x (by simp)
          rw [List.cons_append, skipWs_of_not (hp x (by simp)) hw] at h2
          simp at h2
          exact hni (by rcases h2 with rfl | rfl <;> simp [NotInUrl])
  · -- `url(` and a url
    simp only [Bool.and_eq_true, decide_eq_true_eq] at h1
    obtain ⟨rfl, h1⟩ := h1
    cases q with
    | nil => simp at h1
    | cons c q =>
      simp at h1
      subst h1
      rw [nextChar_cons (by decide)] at h h2
      simp only at h h2
      have hpq : ∀ x ∈ q, Plain env x := hq.tail.plain
      have hsk := skips_ok hpq
      refine .url (r1 := env.skipWs q) hn isUrl_url hsk ?_ ?_
      · rw [List.head?_eq_getElem?]
        simpa using h2
      · rcases (ht.url s _ q (List.suffix_refl _) hn isUrl_url).2 with hquote | ⟨a, b, c, d, rfl, hac, hb, hd⟩
        · exfalso
          cases q with
          | nil => simp at hquote
          | cons x q =>
            have hx : ¬ Whitespace x := by
              rcases hquote with h | h <;> simp at h <;> subst h <;> decide
            rw [skipWs_of_not (hpq x (by simp)) hx] at h2
            rw [List.head?_eq_getElem?] at hquote
            exact h2 (by simpa using hquote)
        · have e1 : env.skipWs (a ++ b ++ c ++ d) = env.skipWs (b ++ c ++ d) := by
            rw [List.append_assoc, List.append_assoc, skipWs_of_ws (fun x hx => hac x (by simp [hx])), List.append_assoc]
          rw [e1] at h ⊢
          cases b with
          | nil =>
            rw [List.nil_append, skipWs_of_ws (fun x hx => hac x (by simp [hx])), skipWs_end hd] at h ⊢
            rw [skipWs_end hd] at h
            exact url_ok (b := []) (c := []) (fun x hx => hpq x (by simp at hx; simp [hx])) (by simp) (by simp) hd h
          | cons x b =>
            obtain ⟨hw, _⟩ := hb x (by simp)
            have e2 : env.skipWs (x :: b ++ c ++ d) = x :: b ++ c ++ d := by
              rw [List.cons_append, List.cons_append, skipWs_of_not (hpq x (by simp)) hw]
            rw [e2, e2] at h
            rw [e2]
            exact url_ok (fun y hy => hpq y (by simp only [List.append_assoc, List.mem_append] at hy ⊢; exact .inr hy)) hb
              (fun y hy => hac y (by simp [hy])) hd h
  · -- a function
    cases q with
    | nil => simp at h3
    | cons c q =>
      simp at h3
      subst h3
      rw [nextChar_cons (by decide)] at h
      cases h
      refine .function hn (fun hu => ?_)
      have := (ht.url s v _ (List.suffix_refl _) hn hu).1
      exact h1 (by simp [this])
  · cases h
    exact .ident hn (by rw [List.head?_eq_getElem?]; exact h3)

/-! ## `consume_token` -/

theorem startsUnsigned_iff {env : Env} {s : Str} (ht : ∀ c ∈ s, Plain env c) :
    StartsUnsigned s ↔ (s[0]? = some '.' ∧ s[1]?.any env.isNum = true) ∨ s[0]?.any env.isNum = true := by
  cases s with
  | nil =>
    constructor
    · rintro (h | ⟨_, h, _⟩)
      · exact absurd h starts_nil
      · cases h
    · simp
  | cons c s =>
    have h1 := any_starts (s := s) (p := env.isNum) (P := Digit) (fun x hx => isNum_iff (ht x (by simp [hx])))
    have h2 : env.isNum c = true ↔ Digit c := isNum_iff (ht c (by simp))
    simp only [StartsUnsigned, starts_cons, List.cons.injEq, List.getElem?_cons_zero, List.getElem?_cons_succ, Option.some.injEq,
      Option.any_some, h2, h1]
    constructor
    · rintro (h | ⟨_, ⟨rfl, rfl⟩, h⟩)
      · exact .inr h
      · exact .inl ⟨rfl, h⟩
    · rintro (⟨rfl, h⟩ | h)
      · exact .inr ⟨s, ⟨rfl, rfl⟩, h⟩
      · exact .inl h

theorem startsNumber_signed {c : Char} {s : Str} (hc : c = '+' ∨ c = '-') : StartsNumber (c :: s) ↔ StartsUnsigned s := by
  have h1 : ¬ Digit c := by rcases hc with rfl | rfl <;> decide
  have h2 : c ≠ '.' := by rcases hc with rfl | rfl <;> decide
  constructor
  · rintro ((h | ⟨_, h, _⟩) | ⟨_, _, h, _, h'⟩)
    · exact absurd (starts_cons.1 h) h1
    · cases h; exact absurd rfl h2
    · cases h; exact h'
  · intro h
    exact .inr ⟨c, s, rfl, hc, h⟩

theorem signedDecimal_iff {env : Env} {c : Char} {s : Str} (hc : c = '+' ∨ c = '-') (ht : ∀ x ∈ s, Plain env x) :
    env.signedDecimal (c :: s) = true ↔ StartsNumber (c :: s) := by
  rw [startsNumber_signed hc, startsUnsigned_iff ht]
  simp [Env.signedDecimal, hc]

theorem take_three {s : Str} (a b c : Char) (h : lookSlice 3 s = [a, b, c]) : ∃ r, s = a :: b :: c :: r := by
  rcases s with _ | ⟨x, _ | ⟨y, _ | ⟨z, s⟩⟩⟩ <;> simp [lookSlice] at h
  exact ⟨s, by simp [h]⟩

theorem take_four {s : Str} (a b c d : Char) (h : lookSlice 4 s = [a, b, c, d]) : ∃ r, s = a :: b :: c :: d :: r := by
  rcases s with _ | ⟨x, _ | ⟨y, _ | ⟨z, _ | ⟨w, s⟩⟩⟩⟩ <;> simp [lookSlice] at h
  exact ⟨s, by simp [h]⟩

/-- what the standard allows -/
def Allowed (s : Str) (o : Option (Token × Str)) : Prop := ∀ t r, o = some (t, r) → Consume s (bare t) r

theorem allowed_some {s : Str} {t : Token} {r : Str} (h : Consume s (bare t) r) : Allowed s (some (t, r)) := by
  intro t' r' e
  cases e
  exact h

theorem dispatch_ok {env : Env} {n : Nat} {s : Str} (ht : Tame env s) : Allowed s (env.dispatch n s) := by
  cases s with
  | nil => exact allowed_some .eof
  | cons c r =>
    have hpr : ∀ x ∈ r, Plain env x := ht.tail.plain
    have hpc : Plain env c := ht.plain c (by simp)
    have hnum : ∀ (_ : c = '+' ∨ c = '.' ∨ c = '-' ∨ Digit c) (_ : StartsNumber (c :: r)), Allowed (c :: r) (env.numeric n (c :: r)) :=
      fun h1 h2 t r' e => .numeric h1 h2 (numeric_ok ht e)
    refine ite_elim (fun w => ?_) (fun nw => ?_)
    · exact allowed_some (.whitespace (starts_cons.2 ((isWs_iff hpc).1 w)) (skips_ok ht.plain))
    refine ite_elim (fun q => ?_) (fun nq => ?_)
    · intro t r' e
      exact .string q (string_tail q ht.tail e)
    refine ite_elim (fun hh => ?_) (fun nh => ?_)
    · subst hh
      have hiff : (env.isIdentChar (toChar r[0]?) || isEscape 0 r) = true ↔ Starts IdentChar r ∨ ValidEscape r := by
        rw [Bool.or_eq_true, isEscape_iff, toChar_starts (by simp [Env.isIdentChar, isIdentStart, Env.isNum]) (fun c hc => isIdentChar_iff (hpr c hc))]
      refine ite_elim (fun q => ?_) (fun q => ?_)
      · intro t r' e
        rw [Option.map_eq_some_iff] at e
        obtain ⟨⟨v, r''⟩, e, h⟩ := e
        cases h
        obtain ⟨v', rfl, hv⟩ := ident_name ht.tail e
        exact .hash (hiff.1 q) hv
      · exact allowed_some (.hashDelim (fun h => q (hiff.2 h)))
    refine ite_elim (fun h => by subst h; exact allowed_some (.punctuation (by decide))) (fun n1 => ?_)
    refine ite_elim (fun h => by subst h; exact allowed_some (.punctuation (by decide))) (fun n2 => ?_)
    refine ite_elim (fun h => by subst h; exact allowed_some (.punctuation (by decide))) (fun n3 => ?_)
    refine ite_elim (fun h => by subst h; exact allowed_some (.punctuation (by decide))) (fun n4 => ?_)
    refine ite_elim (fun h => by subst h; exact allowed_some (.punctuation (by decide))) (fun n5 => ?_)
    refine ite_elim (fun h => by subst h; exact allowed_some (.punctuation (by decide))) (fun n6 => ?_)
    refine ite_elim (fun h => by subst h; exact allowed_some (.punctuation (by decide))) (fun n7 => ?_)
    refine ite_elim (fun h => by subst h; exact allowed_some (.punctuation (by decide))) (fun n8 => ?_)
    refine ite_elim (fun h => by subst h; exact allowed_some (.punctuation (by decide))) (fun n9 => ?_)
    refine ite_elim (fun hp => ?_) (fun n10 => ?_)
    · have hiff := signedDecimal_iff (env := env) (s := r) (.inl hp) hpr
      exact ite_elim (fun q => hnum (.inl hp) (hiff.1 q)) (fun q => allowed_some (.delim (.inl hp) (fun h => q (hiff.2 h))))
    refine ite_elim (fun hp => ?_) (fun n11 => ?_)
    · subst hp
      have h1 := any_starts (s := r) (p := env.isNum) (P := Digit) (fun x hx => isNum_iff (hpr x hx))
      have hiff : StartsNumber ('.' :: r) ↔ Starts Digit r := by
        constructor
        · rintro ((h | ⟨_, h, h'⟩) | ⟨_, _, h, h', _⟩)
          · exact absurd (starts_cons.1 h) (by decide)
          · cases h; exact h'
          · cases h; simp at h'
        · intro h
          exact .inl (.inr ⟨r, rfl, h⟩)
      exact ite_elim (fun q => hnum (.inr (.inl rfl)) (hiff.2 (h1.1 q)))
        (fun q => allowed_some (.delim (.inr rfl) (fun h => q (h1.2 (hiff.1 h)))))
    refine ite_elim (fun hp => ?_) (fun n12 => ?_)
    · have hiff := signedDecimal_iff (env := env) (s := r) (.inr hp) hpr
      subst hp
      refine ite_elim (fun q => hnum (.inr (.inr (.inl rfl))) (hiff.1 q)) (fun q => ?_)
      have hn : ¬ StartsNumber ('-' :: r) := fun h => q (hiff.2 h)
      refine ite_elim (fun hc => ?_) (fun hc => ?_)
      · obtain ⟨r', e⟩ := take_three '-' '-' '>' hc
        cases e
        exact allowed_some .cdc
      · have hc' : ¬ "->".toList <+: r := by
          rintro ⟨r', e⟩
          apply hc
          rw [← e]
          rfl
        refine ite_elim (fun hi => ?_) (fun hi => ?_)
        · intro t r' e
          exact .minusIdent hn hc' ((startsIdent_iff _).1 hi) (identLike_ok ht e)
        · exact allowed_some (.minusDelim hn hc' (fun h => hi ((startsIdent_iff _).2 h)))
    refine ite_elim (fun hp => ?_) (fun n13 => ?_)
    · subst hp
      refine ite_elim (fun hc => ?_) (fun hc => ?_)
      · obtain ⟨r', e⟩ := take_four '<' '!' '-' '-' hc
        cases e
        exact allowed_some .cdo
      · refine allowed_some (.lessDelim ?_)
        rintro ⟨r', e⟩
        apply hc
        rw [← e]
        rfl
    refine ite_elim (fun hp => ?_) (fun n14 => ?_)
    · subst hp
      refine ite_elim (fun hi => ?_) (fun hi => ?_)
      · intro t r' e
        rw [Option.map_eq_some_iff] at e
        obtain ⟨⟨v, r''⟩, e, h⟩ := e
        cases h
        obtain ⟨v', rfl, hv⟩ := ident_name ht.tail e
        exact .atKeyword ((startsIdent_iff _).1 hi) hv
      · exact allowed_some (.atDelim (fun h => hi ((startsIdent_iff _).2 h)))
    refine ite_elim (fun hp => ?_) (fun n15 => ?_)
    · subst hp
      refine ite_elim (fun hi => ?_) (fun hi => ?_)
      · intro t r' e
        exact .backslash ((isEscape_iff _).1 hi) (identLike_ok ht e)
      · exact allowed_some (.backslashDelim (fun h => hi ((isEscape_iff _).2 h)))
    refine ite_elim (fun hd => ?_) (fun nd => ?_)
    · have hd' := (isNum_iff hpc).1 hd
      exact hnum (.inr (.inr (.inr hd'))) (.inl (.inl (starts_cons.2 hd')))
    refine ite_elim (fun hr => ?_) (fun _ => ?_)
    · exfalso
      obtain ⟨hu, hr⟩ := hr
      rcases r with _ | ⟨p, _ | ⟨x, r⟩⟩
      · simp [startsRange] at hr
      · simp [startsRange] at hr
      · simp [startsRange, isHex_iff] at hr
        obtain ⟨rfl, hr⟩ := hr
        exact ht.range c x r (List.suffix_refl _) hu hr
    refine ite_elim (fun hi => ?_) (fun ni => ?_)
    · intro t r' e
      exact .ident ((isIdentStart_iff c).1 hi) (identLike_ok ht e)
    · refine allowed_some (.other (fun h => nw ((isWs_iff hpc).2 h)) ?_ ?_ (fun h => nd ((isNum_iff hpc).2 h))
        (fun h => ni ((isIdentStart_iff c).2 h)))
      · rw [not_or] at nq
        simp [nq.1, nq.2, nh, n10, n11, n12, n13, n14, n15]
      · simp [punctuation, n1, n2, n3, n4, n5, n6, n7, n8, n9]

/-! ## Comments -/

theorem skipComments_true (s : Str) : (∃ c r, s = c ++ "*/".toList ++ r ∧ ¬ "*/".toList <:+: c ++ ['*'] ∧ skipComments true s = skipComments false r) ∨
    (¬ "*/".toList <:+: s ∧ skipComments true s = []) := by
  induction s with
  | nil => right; exact ⟨by decide, rfl⟩
  | cons a s ih =>
    cases s with
    | nil =>
      right
      refine ⟨fun h => ?_, rfl⟩
      have := h.length_le
      simp at this
    | cons b s =>
      by_cases hab : a = '*' ∧ b = '/'
      · left
        refine ⟨[], s, by simp [hab], ?_, by simp [skipComments, hab]⟩
        intro h
        have := h.length_le
        simp at this
      · have e : skipComments true (a :: b :: s) = skipComments true (b :: s) := by
          rw [skipComments]
          simp [hab]
        rw [e]
        rcases ih with ⟨c, r, h1, h2, h3⟩ | ⟨h1, h2⟩
        · left
          refine ⟨a :: c, r, by simp [h1], ?_, h3⟩
          rw [List.cons_append, List.infix_cons_iff]
          rintro (h | h)
          · obtain ⟨q, hq⟩ := h
            cases c with
            | nil => simp at hq
            | cons x c =>
              simp at hq h1
              exact hab ⟨hq.1.symm, h1.1.trans hq.2.1.symm⟩
          · exact h2 h
        · right
          refine ⟨?_, h2⟩
          rw [List.infix_cons_iff]
          rintro (h | h)
          · obtain ⟨q, hq⟩ := h
            simp at hq
            exact hab ⟨hq.1.symm, hq.2.1.symm⟩
          · exact h1 h

theorem comments_ok (s : Str) : Comments s (skipComments false s) := by
  induction hl : s.length using Nat.strongRecOn generalizing s with
  | ind l ih =>
    subst hl
    rcases s with _ | ⟨a, _ | ⟨b, s⟩⟩
    · exact .none (by decide)
    · refine .none ?_
      intro h
      have := h.length_le
      simp at this
    · by_cases hab : a = '/' ∧ b = '*'
      · obtain ⟨rfl, rfl⟩ := hab
        have e : skipComments false ('/' :: '*' :: s) = skipComments true s := by
          rw [skipComments]
          simp
        rw [e]
        rcases skipComments_true s with ⟨c, r, h1, h2, h3⟩ | ⟨h1, h2⟩
        · rw [h3]
          have := Comments.comment h2 (ih r.length (by rw [h1]; simp; omega) r rfl)
          rw [h1]
          simpa using this
        · rw [h2]
          exact .open h1
      · have e : skipComments false (a :: b :: s) = a :: b :: s := by
          rw [skipComments]
          simp [hab]
        rw [e]
        refine .none ?_
        rintro ⟨q, hq⟩
        simp at hq
        exact hab ⟨hq.1.symm, hq.2.1.symm⟩

/-! ## Whole texts -/

theorem token_ok {env : Env} {n : Nat} {s : Str} {t : Token} {r : Str} (ht : Tame env s) (h : env.token n false s = some (t, r)) :
    Next s (bare t) r :=
  ⟨skipComments false s, comments_ok s, dispatch_ok (ht.suffix (skipComments_suffix false s)) t r h⟩

theorem token_rest {env : Env} {n : Nat} {first : Bool} {s : Str} {t : Token} {r : Str} (h : env.token n first s = some (t, r)) : r <:+ s := by
  obtain ⟨t', r', e, h'⟩ := token_total env (s.length + 1) first s (by omega)
  cases token_unique env h e
  rcases h' with ⟨_, rfl⟩ | ⟨h', _⟩
  · exact List.nil_suffix
  · exact h'.1

theorem bare_eof {t : Token} (h : bare t = .eof) : t = .eof := by
  cases t <;> simp [bare] at h ⊢

theorem yields_ok {env : Env} {first : Bool} {s : Str} {ts : List Token} (hf : first = false) (ht : Tame env s) (h : Yields env first s ts) :
    Tokens s (ts.map bare) := by
  induction h with
  | eof h => subst hf; exact .eof (token_ok ht h)
  | next h hne _ ih =>
    subst hf
    exact .next (token_ok ht h) (fun h => hne (bare_eof h)) (ih rfl (ht.suffix (token_rest h)))

theorem preprocess_id {s : Str} (h : ∀ c ∈ s, c ≠ '\r' ∧ c ≠ '\x0C' ∧ c ≠ Char.ofNat 0) : preprocess s = s := by
  induction s with
  | nil => rfl
  | cons c s ih =>
    have hc := h c (by simp)
    rw [preprocess]
    · simp only [hc.1, hc.2.1, hc.2.2, or_self, if_false]
      rw [ih (fun c h' => h c (by simp [h']))]
    · intro _ h1
      exact absurd h1 hc.1

theorem token_decode (env : Env) (n : Nat) (s : Str) : env.token n true s = env.token n false (decode s) := by
  cases s with
  | nil => rfl
  | cons c s =>
    unfold Env.token decode
    simp only [List.getElem?_cons_zero, Option.some.injEq, Bool.true_and, decide_eq_true_eq, Bool.false_and]
    by_cases h : c = Char.ofNat 0xFEFF
    · subst h
      rw [if_pos rfl, nextChar_cons (by decide)]
      rfl
    · rw [if_neg h, if_neg h]
      rfl

theorem yields_decode {env : Env} {s : Str} {ts : List Token} (h : Yields env true s ts) : Yields env false (decode s) ts := by
  cases h with
  | eof h => exact .eof (by rw [token_decode] at h; exact h)
  | next h hne hs => exact .next (by rw [token_decode] at h; exact h) hne hs

end Verif.CssTok
