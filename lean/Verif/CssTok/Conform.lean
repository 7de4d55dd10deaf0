import Verif.CssTok.Chars

/-! # What the engine reads from tame text is what the standard says -/

namespace Verif.CssTok

open Standard

theorem Tame.suffix {env : Env} {s t : Str} (h : Tame env s) (ht : t <:+ s) : Tame env t where
  chars c hc := h.chars c (ht.subset hc)
  last hl := h.last (hl.trans ht)
  newline hl := h.newline (hl.trans ht.isInfix)
  max t c r h1 h2 := h.max t c r (h1.trans ht) h2
  range u c t h1 h2 := h.range u c t (h1.trans ht) h2
  url t v r h1 h2 h3 := h.url t v r (h1.trans ht) h2 h3

theorem Tame.plain {env : Env} {s : Str} (h : Tame env s) : ∀ c ∈ s, Plain env c := h.chars

theorem Tame.tail {env : Env} {c : Char} {s : Str} (h : Tame env (c :: s)) : Tame env s := h.suffix (List.suffix_cons c s)

theorem nextChar_cons {c : Char} (h : c ≠ '\r') (r : Str) : nextChar (c :: r) = (c, r) := by
  unfold nextChar
  split
  · next e => cases e; exact absurd rfl h
  · next e => cases e; rfl
  · next e => cases e

theorem Tame.next {env : Env} {c : Char} {s : Str} (h : Tame env (c :: s)) : nextChar (c :: s) = (c, s) :=
  nextChar_cons (h.chars c (by simp)).1 s

/-! ## Escapes -/

theorem hexVal_eq (ds : Str) (h : ∀ c ∈ ds, HexDigit c) : hexVal ds = number ds := by
  suffices ∀ a, ds.foldl (fun n c => 16 * n + (if c.toNat ≤ 57 then c.toNat - 48 else if c.toNat ≤ 70 then c.toNat - 55 else c.toNat - 87)) a =
      ds.foldl (fun n c => n * 16 + digitValue c) a from this 0
  induction ds with
  | nil => intro a; rfl
  | cons c ds ih =>
    intro a
    simp only [List.foldl_cons]
    have hc : (if c.toNat ≤ 57 then c.toNat - 48 else if c.toNat ≤ 70 then c.toNat - 55 else c.toNat - 87) = digitValue c := by
      have : ∀ c ∈ hexDigits, (if c.toNat ≤ 57 then c.toNat - 48 else if c.toNat ≤ 70 then c.toNat - 55 else c.toNat - 87) = digitValue c := by
        decide +kernel
      exact this c (h c (by simp))
    rw [hc, Nat.mul_comm]
    exact ih (fun c hc => h c (by simp [hc])) _

theorem unescape_eq {ds : Str} (h : ∀ c ∈ ds, HexDigit c) (h0 : ds ≠ []) (hm : (codePoint (number ds)).toNat ≠ 0x10FFFF) :
    unescape ds = codePoint (number ds) := by
  unfold unescape
  rw [if_neg h0, hexVal_eq ds h]
  have hne : number ds ≠ 0x10FFFF := by
    intro e
    rw [e] at hm
    exact hm (by decide +kernel)
  clear hm
  generalize number ds = n at hne ⊢
  unfold codePoint
  simp only [Nat.isValidChar, repl]
  split_ifs <;> first | rfl | omega

/-- as many hexadecimal digits as there are, up to six -/
theorem hex_split (r : Str) : ∃ r', r = (r.takeWhile isHex).take 6 ++ r' ∧ r.drop ((r.takeWhile isHex).take 6).length = r' ∧
    (∀ c ∈ (r.takeWhile isHex).take 6, HexDigit c) ∧ (((r.takeWhile isHex).take 6).length = 6 ∨ ¬ Starts HexDigit r') ∧ ((r.takeWhile isHex).take 6).length ≤ 6 := by
  have hp : (r.takeWhile isHex).take 6 <+: r := (List.take_prefix _ _).trans (List.takeWhile_prefix _)
  have e := List.prefix_iff_eq_append.1 hp
  refine ⟨_, e.symm, rfl, ?_, ?_, by simp; omega⟩
  · intro c hc
    have := List.mem_of_mem_take hc
    exact (isHex_iff c).1 (List.all_eq_true.1 List.all_takeWhile c this)
  · by_cases hl : 6 ≤ (r.takeWhile isHex).length
    · left; simp [hl]
    · right
      rw [List.take_of_length_le (by omega)] at e ⊢
      have e' : r.drop (r.takeWhile isHex).length = r.dropWhile isHex := by
        have h2 : r.takeWhile isHex ++ r.drop (r.takeWhile isHex).length = r.takeWhile isHex ++ r.dropWhile isHex := by
          rw [e, List.takeWhile_append_dropWhile]
        exact List.append_cancel_left h2
      rw [e']
      rintro ⟨c, q, hq, hc⟩
      have := List.head?_dropWhile_not isHex r
      rw [hq] at this
      simp [(isHex_iff c).2 hc] at this

theorem escaped_hex {env : Env} {r : Str} (ht : Tame env ('\\' :: r)) (hh : Starts HexDigit r) :
    Escaped r (env.escaped ('\\' :: r)).1 (env.escaped ('\\' :: r)).2 := by
  obtain ⟨r', e1, e2, h3, h4, h5⟩ := hex_split r
  have hr : r ≠ [] := by
    rintro rfl
    exact starts_nil hh
  have h0 : (r.takeWhile isHex).take 6 ≠ [] := by
    obtain ⟨c, q, rfl, hc⟩ := hh
    simp [(isHex_iff c).2 hc]
  unfold Env.escaped
  simp only [ht.next, if_neg hr, e2]
  have hpl : ∀ c ∈ r', (env.isWs c = true ↔ Whitespace c) := fun c hc => isWs_iff (ht.tail.plain c (by rw [e1]; simp [hc]))
  generalize (r.takeWhile isHex).take 6 = ds at *
  have key : ∀ w q, r' = w ++ q → ((∃ c, w = [c] ∧ Whitespace c) ∨ (w = [] ∧ ¬ Starts Whitespace q)) → Escaped r (unescape ds) q := by
    intro w q hq hw
    have e : Escaped r (codePoint (number ds)) q := by
      rw [e1, hq, ← List.append_assoc]
      exact .hex h0 h5 h3 (by rw [← hq]; exact h4) hw
    rw [unescape_eq h3 h0 (ht.max r _ q (List.suffix_refl _) e)]
    exact e
  split_ifs with hw
  · have hst := (any_starts hpl).1 hw
    obtain ⟨c, q, rfl, hc⟩ := hst
    have hcr : c ≠ '\r' := (ht.tail.plain c (by rw [e1]; simp)).1
    rw [nextChar_cons hcr]
    exact key [c] q rfl (.inl ⟨c, rfl, hc⟩)
  · exact key [] r' rfl (.inr ⟨rfl, fun h => hw ((any_starts hpl).2 h)⟩)

/-- tame text has something after a backslash, and not a newline -/
theorem Tame.after {env : Env} {r : Str} (h : Tame env ('\\' :: r)) : r ≠ [] ∧ r.head? ≠ some '\n' ∧ ValidEscape ('\\' :: r) := by
  have a : r ≠ [] := by
    rintro rfl
    exact h.last (List.suffix_refl _)
  have b : r.head? ≠ some '\n' := by
    intro e
    cases r with
    | nil => simp at e
    | cons c r =>
      simp at e
      subst e
      exact h.newline ⟨[], r, rfl⟩
  exact ⟨a, b, validEscape_cons.2 ⟨rfl, b⟩⟩

theorem plainEscape_iff (s : Str) : plainEscape s = true ↔ ∃ c r, s = '\\' :: c :: r ∧ ¬ HexDigit c := by
  rcases s with _ | ⟨a, _ | ⟨c, r⟩⟩
  · simp [plainEscape]
  · simp [plainEscape]
  · simp only [plainEscape, List.getElem?_cons_zero, List.getElem?_cons_succ, Option.any_some, Bool.and_eq_true, decide_eq_true_eq,
      Option.some.injEq, Bool.not_eq_true', ← Bool.not_eq_true, isHex_iff]
    constructor
    · rintro ⟨⟨rfl, h⟩, _⟩
      exact ⟨c, r, rfl, h⟩
    · rintro ⟨_, _, e, h⟩
      cases e
      exact ⟨⟨rfl, h⟩, by simp⟩

/-! ## Names -/

theorem ident_name {env : Env} {n : Nat} {s value v' r : Str} (ht : Tame env s) (h : env.ident n s value = some (v', r)) :
    ∃ v, v' = value ++ v ∧ Name s v r := by
  induction n generalizing s value with
  | zero => simp [Env.ident] at h
  | succ n ih =>
    rw [Env.ident] at h
    split_ifs at h with h1 h2 h3
    · obtain ⟨c, q, rfl, hc⟩ := (plainEscape_iff s).1 h1
      rw [ht.next, ht.tail.next] at h
      obtain ⟨v, rfl, hv⟩ := ih ht.tail.tail h
      exact ⟨c :: v, by simp, .escape ht.after.2.2 (.other hc) hv⟩
    · obtain ⟨q, rfl, hq⟩ := (isEscape_iff s).1 h2
      obtain ⟨hne, _, hve⟩ := ht.after
      obtain ⟨c, q, rfl⟩ := List.exists_cons_of_ne_nil hne
      have hc : HexDigit c := by
        by_contra hc
        exact h1 ((plainEscape_iff _).2 ⟨c, q, rfl, hc⟩)
      obtain ⟨v, rfl, hv⟩ := ih (ht.suffix (escaped_shorter env (by simp)).1) h
      exact ⟨_ :: v, by simp, .escape hve (escaped_hex ht (starts_cons.2 hc)) hv⟩
    · cases h
      refine ⟨[], by simp, .stop ?_ (fun hv => h2 ((isEscape_iff _).2 hv))⟩
      intro hs
      rw [(toChar_starts (by simp [Env.isIdentChar, isIdentStart, Env.isNum]) (fun c hc => isIdentChar_iff (ht.plain c hc))).2 hs] at h3
      simp at h3
    · cases s with
      | nil => simp [toChar, Env.isIdentChar, isIdentStart, Env.isNum] at h3
      | cons c s =>
        rw [ht.next] at h
        obtain ⟨v, rfl, hv⟩ := ih ht.tail h
        refine ⟨c :: v, by simp [toChar], .char ?_ hv⟩
        rw [← isIdentChar_iff (ht.plain c (by simp))]
        simpa [toChar] using h3

theorem name_suffix {s v r : Str} (h : Name s v r) : r <:+ s := by
  have esc : ∀ {s c r}, Escaped s c r → r <:+ s := by
    intro s c r h
    cases h with
    | hex => exact List.suffix_append _ _
    | eof => exact List.suffix_refl _
    | other => exact List.suffix_cons _ _
  induction h with
  | char _ _ ih => exact ih.trans (List.suffix_cons _ _)
  | escape _ he _ ih => exact (ih.trans (esc he)).trans (List.suffix_cons _ _)
  | stop => exact List.suffix_refl _

/-! ## Strings -/

theorem string_tail {env : Env} {q : Char} {n : Nat} {s value : Str} {t : Token} {r : Str} (hq : q = '"' ∨ q = '\'') (ht : Tame env s)
    (h : env.string q n s value = some (t, r)) : StringTail q value s (bare t) r := by
  induction n generalizing s value with
  | zero => simp [Env.string] at h
  | succ n ih =>
    rw [Env.string] at h
    split_ifs at h with h1 h2 h3 h4 h5
    · cases h
      cases s with
      | nil => exact .eof
      | cons c s =>
        have : c = q := by simpa using h1
        subst this
        rw [ht.next]
        exact .close
    · cases h
      cases r with
      | nil => simp at h2
      | cons c s =>
        have : c = '\n' := by simpa using h2
        subst this
        exact .newline
    · rcases s with _ | ⟨a, _ | ⟨b, s⟩⟩
      · simp at h3
      · simp at h3
      · simp at h3
        obtain ⟨rfl, rfl⟩ := h3
        exact absurd rfl (ht.after.2.1)
    · obtain ⟨c, q', rfl, hc⟩ := (plainEscape_iff s).1 h4
      rw [ht.next, ht.tail.next] at h
      exact .escape (by simp) ht.after.2.2 (.other hc) (ih ht.tail.tail h)
    · obtain ⟨q', rfl, _⟩ := (isEscape_iff s).1 h5
      obtain ⟨hne, _, hve⟩ := ht.after
      obtain ⟨c, q', rfl⟩ := List.exists_cons_of_ne_nil hne
      have hc : HexDigit c := by
        by_contra hc
        exact h4 ((plainEscape_iff _).2 ⟨c, q', rfl, hc⟩)
      exact .escape (by simp) hve (escaped_hex ht (starts_cons.2 hc)) (ih (ht.suffix (escaped_shorter env (by simp)).1) h)
    · cases s with
      | nil => simp at h1
      | cons c s =>
        rw [ht.next] at h
        refine .other ?_ ?_ ?_ (ih ht.tail h)
        · rintro rfl; simp at h1
        · rintro rfl; simp at h2
        · rintro rfl; exact h5 ((isEscape_iff _).2 ht.after.2.2)

/-! ## Numbers -/

theorem digits_ok {env : Env} {s : Str} (ht : ∀ c ∈ s, Plain env c) :
    s = (env.digits s).1 ++ (env.digits s).2 ∧ Digits (env.digits s).1 (env.digits s).2 := by
  refine ⟨(List.takeWhile_append_dropWhile).symm, ?_, ?_⟩
  · intro c hc
    exact (isNum_iff (ht c ((List.takeWhile_prefix _).subset hc))).1 (List.all_eq_true.1 List.all_takeWhile c hc)
  · rintro ⟨c, q, e, hc⟩
    have := List.head?_dropWhile_not env.isNum s
    have hm : c ∈ s := (List.dropWhile_suffix env.isNum).subset (by rw [show List.dropWhile env.isNum s = c :: q from e]; simp)
    rw [show List.dropWhile env.isNum s = c :: q from e] at this
    simp [(isNum_iff (ht c hm)).2 hc] at this

theorem sign_ok (s : Str) : Sign s (sign s).1 (sign s).2 := by
  cases s with
  | nil => exact .none starts_nil
  | cons c s =>
    unfold sign
    simp only
    split_ifs with h
    · exact .some h
    · exact .none (fun h' => h (starts_cons.1 h'))

theorem fraction_ok {env : Env} {s : Str} (ht : ∀ c ∈ s, Plain env c) : Fraction s (env.fraction s).1 (env.fraction s).2 := by
  unfold Env.fraction
  split_ifs with h
  · rcases s with _ | ⟨a, _ | ⟨b, s⟩⟩
    · simp at h
    · simp at h
    · simp at h
      obtain ⟨rfl, hb⟩ := h
      have hbd : Digit b := (isNum_iff (ht b (by simp))).1 hb
      obtain ⟨e, hd⟩ := digits_ok (env := env) (s := s) (fun c hc => ht c (by simp [hc]))
      have := Fraction.some (ds := b :: (env.digits s).1) (r := (env.digits s).2) (by simp)
        ⟨by intro c hc; rcases List.mem_cons.1 hc with rfl | hc; exacts [hbd, hd.1 c hc], hd.2⟩
      rw [List.cons_append, ← e] at this
      exact this
  · refine .none ?_
    rintro ⟨r, rfl, hd⟩
    apply h
    obtain ⟨c, q, rfl, hc⟩ := hd
    simp [(isNum_iff (ht c (by simp))).2 hc]

theorem exponent_ok {env : Env} {s : Str} (ht : ∀ c ∈ s, Plain env c) : Exponent s (env.exponent s).1 (env.exponent s).2 := by
  unfold Env.exponent
  split_ifs with h
  · rcases s with _ | ⟨a, _ | ⟨b, s⟩⟩
    · simp at h
    · simp at h
    · simp only [List.getElem?_cons_zero, List.getElem?_cons_succ, Bool.and_eq_true, Bool.or_eq_true, decide_eq_true_eq,
        Option.some.injEq, Option.any_some] at h
      obtain ⟨ha, hb⟩ := h
      have ha : a = 'e' ∨ a = 'E' := ha.symm
      obtain ⟨e, hd⟩ := digits_ok (env := env) (s := s) (fun c hc => ht c (by simp [hc]))
      rcases hb with ⟨hb, hn⟩ | hb
      · cases s with
        | nil => simp at hn
        | cons d s =>
          have hn : env.isNum d = true := by simpa using hn
          have h0 : (env.digits (d :: s)).1 ≠ [] := by simp [Env.digits, hn]
          have := Exponent.some (sg := [b]) ha (by rcases hb with rfl | rfl <;> simp) h0 hd
          rw [List.append_assoc, ← e] at this
          exact this
      · have hbd : Digit b := (isNum_iff (ht b (by simp))).1 hb
        have := Exponent.some (sg := []) (ds := b :: (env.digits s).1) (r := (env.digits s).2) ha (by simp) (by simp)
          ⟨by intro c hc; rcases List.mem_cons.1 hc with rfl | hc; exacts [hbd, hd.1 c hc], hd.2⟩
        rw [List.nil_append, List.cons_append, ← e] at this
        exact this
  · refine .none ?_
    rintro ⟨a, sg, r, rfl, ha, hsg, c, q, rfl, hc⟩
    apply h
    have hn : env.isNum c = true := (isNum_iff (ht c (by simp))).2 hc
    rcases hsg with rfl | rfl | rfl <;> rcases ha with rfl | rfl <;> simp [hn]

theorem number_ok {env : Env} {s : Str} (ht : ∀ c ∈ s, Plain env c) : Number s (env.number s).1 (env.number s).2 := by
  have h1 : ∀ c ∈ (sign s).2, Plain env c := fun c hc => ht c ((sign_suffix s).subset hc)
  have h2 : ∀ c ∈ (env.digits (sign s).2).2, Plain env c := fun c hc => h1 c ((digits_suffix env _).subset hc)
  have h3 : ∀ c ∈ (env.fraction (env.digits (sign s).2).2).2, Plain env c := fun c hc => h2 c ((fraction_suffix env _).subset hc)
  exact .mk (sign_ok s) (digits_ok h1) (fraction_ok h2) (exponent_ok h3)

theorem numeric_ok {env : Env} {n : Nat} {s : Str} {t : Token} {r : Str} (ht : Tame env s) (h : env.numeric n s = some (t, r)) :
    Numeric s (bare t) r := by
  have hn := number_ok ht.plain
  have hs := number_suffix env s
  unfold Env.numeric at h
  generalize env.number s = p at hn hs h
  obtain ⟨v, q⟩ := p
  simp only at hn hs h
  split_ifs at h with h1 h2
  · rw [Option.map_eq_some_iff] at h
    obtain ⟨⟨u, q'⟩, e, h⟩ := h
    cases h
    obtain ⟨v', rfl, hv⟩ := ident_name (ht.suffix hs) e
    exact .dimension hn ((startsIdent_iff q).1 h1) hv
  · cases h
    cases q with
    | nil => simp at h2
    | cons c q =>
      have : c = '%' := by simpa using h2
      subst this
      rw [nextChar_cons (by decide)]
      exact .percentage hn
  · cases h
    exact .number hn (fun h => h1 ((startsIdent_iff _).2 h)) (by rw [List.head?_eq_getElem?]; exact h2)

end Verif.CssTok
