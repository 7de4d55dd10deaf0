import Verif.CharRef.Props

set_option linter.unusedVariables false
namespace Verif.CharRef

open Verif.Map

/-! ## the rules determine the result -/

theorem span_unique {P : Char → Prop} {a a' r r' : Str} (ha : ∀ c ∈ a, P c) (ha' : ∀ c ∈ a', P c)
    (hr : NotNext P r) (hr' : NotNext P r') (e : a ++ r = a' ++ r') : a = a' ∧ r = r' := by
  induction a generalizing a' with
  | nil =>
    cases a' with
    | nil => exact ⟨rfl, e⟩
    | cons c t =>
      simp only [List.nil_append] at e
      exact absurd (ha' c (by simp)) (hr c (by rw [e]; rfl))
  | cons c t ih =>
    cases a' with
    | nil =>
      simp only [List.nil_append] at e
      exact absurd (ha c (by simp)) (hr' c (by rw [← e]; rfl))
    | cons d u =>
      simp only [List.cons_append, List.cons.injEq] at e
      obtain ⟨rfl, e⟩ := e
      obtain ⟨h1, h2⟩ := ih (fun c hc => ha c (by simp [hc])) (fun c hc => ha' c (by simp [hc])) e
      exact ⟨by rw [h1], h2⟩

theorem dec_not_x {c : Char} (h : DecDigit c) : ¬ (c = 'x' ∨ c = 'X') := by
  have : ∀ d ∈ "0123456789".toList, ¬ (d = 'x' ∨ d = 'X') := by decide +kernel
  exact this c h

theorem hash_not_alnum : ¬ AlphaNum '#' := by unfold AlphaNum; decide +kernel

theorem name_head {T : List (Str × Str)} (hT : TableOk T) {name v : Str} (hm : (name, v) ∈ T) :
    ∃ c t, name = c :: t ∧ AlphaNum c := by
  obtain ⟨run, h1, h2, h3⟩ := hT.shape name v hm
  cases run with
  | nil => exact absurd rfl h1
  | cons c t => rcases h3 with rfl | rfl <;> exact ⟨c, _, rfl, h2 c (by simp)⟩

theorem longest_head {T : List (Str × Str)} (hT : TableOk T) {text name v : Str}
    (h : Longest T text name v) : ∃ c, text.head? = some c ∧ AlphaNum c := by
  obtain ⟨c, t, rfl, hc⟩ := name_head hT (mem_of_look h.1)
  obtain ⟨r, rfl⟩ := h.2.1
  exact ⟨c, rfl, hc⟩

/-- the four readings of `#…` -/
theorem Ref.hash {T : List (Str × Str)} (hT : TableOk T) {attr : Bool} {t out r : Str}
    (h : Ref T attr ('#' :: t) out r) :
    (∃ ds r' c, t = ds ++ r' ∧ ds ≠ [] ∧ (∀ d ∈ ds, DecDigit d) ∧ NotNext DecDigit r' ∧
      Denotes (value 10 ds) c ∧ out = [c] ∧ r = dropSemi r') ∨
    (∃ x ds r' c, t = x :: (ds ++ r') ∧ (x = 'x' ∨ x = 'X') ∧ ds ≠ [] ∧ (∀ d ∈ ds, HexDigit d) ∧
      NotNext HexDigit r' ∧ Denotes (value 16 ds) c ∧ out = [c] ∧ r = dropSemi r') ∨
    (NotNext (fun c => DecDigit c ∨ c = 'x' ∨ c = 'X') t ∧ out = ['&', '#'] ∧ r = t) ∨
    (∃ x r', t = x :: r' ∧ (x = 'x' ∨ x = 'X') ∧ NotNext HexDigit r' ∧ out = ['&', '#', x] ∧ r = r') := by
  generalize ht : '#' :: t = text at h
  cases h with
  | decimal h1 h2 h3 h4 =>
    simp only [List.cons.injEq, true_and] at ht
    exact .inl ⟨_, _, _, ht, h1, h2, h3, h4, rfl, rfl⟩
  | hexadecimal h0 h1 h2 h3 h4 =>
    simp only [List.cons.injEq, true_and] at ht
    exact .inr (.inl ⟨_, _, _, _, ht, h0, h1, h2, h3, h4, rfl, rfl⟩)
  | noDigits h =>
    simp only [List.cons.injEq, true_and] at ht
    subst ht
    exact .inr (.inr (.inl ⟨h, rfl, rfl⟩))
  | noHexDigits h0 h =>
    simp only [List.cons.injEq, true_and] at ht
    exact .inr (.inr (.inr ⟨_, _, ht, h0, h, rfl, rfl⟩))
  | named h _ =>
    obtain ⟨c, hc, ha⟩ := longest_head hT h
    rw [← ht] at hc
    simp only [List.head?_cons, Option.some.injEq] at hc
    exact absurd (hc ▸ ha) hash_not_alnum
  | exempt h _ =>
    obtain ⟨c, hc, ha⟩ := longest_head hT h
    rw [← ht] at hc
    simp only [List.head?_cons, Option.some.injEq] at hc
    exact absurd (hc ▸ ha) hash_not_alnum
  | @unknown run _ h1 h2 _ _ =>
    cases run with
    | nil => exact absurd rfl h1
    | cons c u =>
      simp only [List.cons_append, List.cons.injEq] at ht
      exact absurd (ht.1 ▸ h2 c (by simp)) hash_not_alnum
  | literal h => exact absurd (.inr rfl) (h '#' (by rw [← ht]; rfl))

/-- the three readings of a letter or digit -/
theorem Ref.alnum {T : List (Str × Str)} {attr : Bool} {c : Char} {t out r : Str} (hc : AlphaNum c)
    (h : Ref T attr (c :: t) out r) :
    (∃ name v, c :: t = name ++ r ∧ Longest T (c :: t) name v ∧
      (¬ Exempt attr name r ∧ out = v ∨ Exempt attr name r ∧ out = '&' :: name)) ∨
    (∃ run, c :: t = run ++ r ∧ (∀ c ∈ run, AlphaNum c) ∧ NotNext AlphaNum r ∧
      (∀ name v, (name, v) ∈ T → ¬ name <+: c :: t) ∧ out = '&' :: run) := by
  have hne : c ≠ '#' := fun e => hash_not_alnum (e ▸ hc)
  generalize ht : c :: t = text at h ⊢
  cases h with
  | decimal => simp only [List.cons.injEq] at ht; exact absurd ht.1 hne
  | hexadecimal => simp only [List.cons.injEq] at ht; exact absurd ht.1 hne
  | noDigits => simp only [List.cons.injEq] at ht; exact absurd ht.1 hne
  | noHexDigits => simp only [List.cons.injEq] at ht; exact absurd ht.1 hne
  | named h hx => exact .inl ⟨_, _, rfl, h, .inl ⟨hx, rfl⟩⟩
  | exempt h hx => exact .inl ⟨_, _, rfl, h, .inr ⟨hx, rfl⟩⟩
  | unknown h1 h2 h3 h4 => exact .inr ⟨_, rfl, h2, h3, h4, rfl⟩
  | literal h => exact absurd (.inl hc) (h c (by rw [← ht]; rfl))

theorem Longest.functional {T : List (Str × Str)} {text n v n' v' : Str} (h : Longest T text n v)
    (h' : Longest T text n' v') : n = n' ∧ v = v' := by
  have h1 := h.2.2 n' v' (mem_of_look h'.1) h'.2.1
  have h2 := h'.2.2 n v (mem_of_look h.1) h.2.1
  have e : n = n' := by
    rw [List.prefix_iff_eq_take.1 h.2.1, List.prefix_iff_eq_take.1 h'.2.1, Nat.le_antisymm h2 h1]
  subst e
  have := h.1.symm.trans h'.1
  simp only [Option.some.injEq] at this
  exact ⟨rfl, this⟩

/-- **C51.** The rules leave no choice: for each text there is one output and one rest. -/
theorem C51_rules_functional (T : List (Str × Str)) (hT : TableOk T) (attr : Bool) (text o o' r r' : Str)
    (h : Ref T attr text o r) (h' : Ref T attr text o' r') : o = o' ∧ r = r' := by
  have hlit : ∀ {text o r}, NotNext (fun c => AlphaNum c ∨ c = '#') text → Ref T attr text o r →
      o = ['&'] ∧ r = text := by
    intro text o r hn h
    cases h with
    | decimal => exact absurd (.inr rfl) (hn _ rfl)
    | hexadecimal => exact absurd (.inr rfl) (hn _ rfl)
    | noDigits => exact absurd (.inr rfl) (hn _ rfl)
    | noHexDigits => exact absurd (.inr rfl) (hn _ rfl)
    | named h _ => obtain ⟨c, hc, ha⟩ := longest_head hT h; exact absurd (.inl ha) (hn c hc)
    | exempt h _ => obtain ⟨c, hc, ha⟩ := longest_head hT h; exact absurd (.inl ha) (hn c hc)
    | @unknown run _ h1 h2 _ _ =>
      cases run with
      | nil => exact absurd rfl h1
      | cons c u => exact absurd (.inl (h2 c (by simp))) (hn c rfl)
    | literal => exact ⟨rfl, rfl⟩
  cases text with
  | nil =>
    obtain ⟨rfl, rfl⟩ := hlit (by simp [NotNext]) h
    obtain ⟨rfl, rfl⟩ := hlit (by simp [NotNext]) h'
    exact ⟨rfl, rfl⟩
  | cons c t =>
    by_cases hc : AlphaNum c
    · rcases h.alnum hc with ⟨n, v, e, hL, hx⟩ | ⟨run, e, h1, h2, h3, rfl⟩ <;>
      rcases h'.alnum hc with ⟨n', v', e', hL', hx'⟩ | ⟨run', e', h1', h2', h3', rfl⟩
      · obtain ⟨rfl, rfl⟩ := hL.functional hL'
        rw [e] at e'
        have := List.append_cancel_left e'
        subst this
        rcases hx with ⟨a, rfl⟩ | ⟨a, rfl⟩ <;> rcases hx' with ⟨b, rfl⟩ | ⟨b, rfl⟩
        · exact ⟨rfl, rfl⟩
        · exact absurd b a
        · exact absurd a b
        · exact ⟨rfl, rfl⟩
      · exact absurd hL.2.1 (h3' _ _ (mem_of_look hL.1))
      · exact absurd hL'.2.1 (h3 _ _ (mem_of_look hL'.1))
      · obtain ⟨rfl, rfl⟩ := span_unique h1 h1' h2 h2' (e.symm.trans e')
        exact ⟨rfl, rfl⟩
    · by_cases hh : c = '#'
      · subst hh
        have headOf : ∀ {ds r : Str} {P : Char → Prop}, ds ≠ [] → (∀ d ∈ ds, P d) →
            ∃ d, (ds ++ r).head? = some d ∧ P d := by
          intro ds r P h1 h2
          cases ds with
          | nil => exact absurd rfl h1
          | cons d u => exact ⟨d, rfl, h2 d (by simp)⟩
        rcases h.hash hT with ⟨ds, r1, c, e, h1, h2, h3, h4, rfl, rfl⟩ |
            ⟨x, ds, r1, c, e, h0, h1, h2, h3, h4, rfl, rfl⟩ | ⟨h1, rfl, rfl⟩ | ⟨x, r1, e, h0, h1, rfl, rfl⟩ <;>
        rcases h'.hash hT with ⟨ds', r1', c', e', h1', h2', h3', h4', rfl, rfl⟩ |
            ⟨x', ds', r1', c', e', h0', h1', h2', h3', h4', rfl, rfl⟩ | ⟨h1', rfl, rfl⟩ |
            ⟨x', r1', e', h0', h1', rfl, rfl⟩
        · obtain ⟨rfl, rfl⟩ := span_unique h2 h2' h3 h3' (e.symm.trans e')
          exact ⟨by rw [h4.functional h4'], rfl⟩
        · obtain ⟨d, hd, hP⟩ := headOf (r := r1) h1 h2
          rw [← e, e'] at hd; simp only [List.head?_cons, Option.some.injEq] at hd
          exact absurd (hd ▸ h0') (dec_not_x hP)
        · obtain ⟨d, hd, hP⟩ := headOf (r := r1) h1 h2
          rw [← e] at hd; exact absurd (.inl hP) (h1' d hd)
        · obtain ⟨d, hd, hP⟩ := headOf (r := r1) h1 h2
          rw [← e, e'] at hd; simp only [List.head?_cons, Option.some.injEq] at hd
          exact absurd (hd ▸ h0') (dec_not_x hP)
        · obtain ⟨d, hd, hP⟩ := headOf (r := r1') h1' h2'
          rw [← e', e] at hd; simp only [List.head?_cons, Option.some.injEq] at hd
          exact absurd (hd ▸ h0) (dec_not_x hP)
        · rw [e] at e'
          simp only [List.cons.injEq] at e'
          obtain ⟨rfl, rfl⟩ := span_unique h2 h2' h3 h3' e'.2
          exact ⟨by rw [h4.functional h4'], rfl⟩
        · exact absurd (.inr h0) (h1' x (by rw [e]; rfl))
        · rw [e] at e'
          simp only [List.cons.injEq] at e'
          obtain ⟨d, hd, hP⟩ := headOf (r := r1) h1 h2
          rw [e'.2] at hd
          exact absurd hP (h1' d hd)
        · obtain ⟨d, hd, hP⟩ := headOf (r := r1') h1' h2'
          rw [← e'] at hd; exact absurd (.inl hP) (h1 d hd)
        · exact absurd (.inr h0') (h1 x' (by rw [e']; rfl))
        · exact ⟨rfl, rfl⟩
        · exact absurd (.inr h0') (h1 x' (by rw [e']; rfl))
        · obtain ⟨d, hd, hP⟩ := headOf (r := r1') h1' h2'
          rw [← e', e] at hd; simp only [List.head?_cons, Option.some.injEq] at hd
          exact absurd (hd ▸ h0) (dec_not_x hP)
        · rw [e] at e'
          simp only [List.cons.injEq] at e'
          obtain ⟨d, hd, hP⟩ := headOf (r := r1') h1' h2'
          rw [← e'.2] at hd
          exact absurd hP (h1 d hd)
        · exact absurd (.inr h0) (h1' x (by rw [e]; rfl))
        · rw [e] at e'
          simp only [List.cons.injEq] at e'
          obtain ⟨rfl, rfl⟩ := e'
          exact ⟨rfl, rfl⟩
      · have hn : NotNext (fun c => AlphaNum c ∨ c = '#') (c :: t) := by
          intro d hd
          simp only [List.head?_cons, Option.some.injEq] at hd
          subst hd
          rintro (h | h)
          · exact hc h
          · exact hh h
        obtain ⟨rfl, rfl⟩ := hlit hn h
        obtain ⟨rfl, rfl⟩ := hlit hn h'
        exact ⟨rfl, rfl⟩

/-- **C51.** Whatever the rules give for the text is what the tokenizer does. -/
theorem C51_reference_exact (T : List (Str × Str)) (hT : TableOk T) (attr : Bool) (s : St) (out r : Str)
    (h : Ref T attr s.rest out r) : Emitted attr s (consumeCharacterReference T attr s) out r := by
  obtain ⟨o', r', h', he⟩ := C51_reference T hT attr s
  obtain ⟨rfl, rfl⟩ := C51_rules_functional T hT attr _ _ _ _ _ h h'
  exact he

/-! ## the table of the engine -/

/-- letters and digits, then perhaps one `;` -/
def shapeCheck : Str → Bool
  | [] => false
  | [c] => isAlnum c
  | c :: d :: r => isAlnum c && (decide (d = ';' ∧ r = []) || shapeCheck (d :: r))

def markerCheck : Str → Bool
  | [] => true
  | c :: r => !("StreamEnd".toList.isPrefixOf (c :: r)) && markerCheck r

theorem shapeCheck_spec {s : Str} (h : shapeCheck s = true) :
    ∃ run : Str, run ≠ [] ∧ (∀ c ∈ run, AlphaNum c) ∧ (s = run ∨ s = run ++ [';']) := by
  induction s with
  | nil => simp [shapeCheck] at h
  | cons c t ih =>
    cases t with
    | nil =>
      refine ⟨[c], by simp, ?_, .inl rfl⟩
      intro d hd; simp only [List.mem_singleton] at hd; subst hd; exact (alnum_iff _).1 h
    | cons d r =>
      simp only [shapeCheck, Bool.and_eq_true, Bool.or_eq_true, decide_eq_true_iff] at h
      obtain ⟨hc, ⟨rfl, rfl⟩ | h⟩ := h
      · refine ⟨[c], by simp, ?_, .inr rfl⟩
        intro d hd; simp only [List.mem_singleton] at hd; subst hd; exact (alnum_iff _).1 hc
      · obtain ⟨run, h1, h2, h3⟩ := ih h
        refine ⟨c :: run, by simp, ?_, ?_⟩
        · intro d hd
          rcases List.mem_cons.1 hd with rfl | hd
          · exact (alnum_iff _).1 hc
          · exact h2 d hd
        · rcases h3 with h3 | h3 <;> simp [h3]

theorem markerCheck_spec {s : Str} (h : markerCheck s = true) : ¬ "StreamEnd".toList <:+: s := by
  induction s with
  | nil =>
    rintro ⟨a, b, e⟩
    have := congrArg List.length e
    rw [show "StreamEnd".toList = ['S','t','r','e','a','m','E','n','d'] from by decide +kernel] at this
    simp at this
  | cons c t ih =>
    simp only [markerCheck, Bool.and_eq_true, Bool.not_eq_true'] at h
    intro hi
    rw [List.infix_cons_iff] at hi
    rcases hi with hi | hi
    · have := List.isPrefixOf_iff_prefix.2 hi
      rw [this] at h
      simp at h
    · exact ih h.2 hi

theorem names_checked : (tokenNamedChars.all fun e => shapeCheck e.1 && markerCheck e.1) = true := by
  decide +kernel

/-- The engine's own table of 2231 names has the required shape. -/
theorem C51_table_ok : TableOk tokenNamedChars := by
  have h := List.all_eq_true.1 names_checked
  constructor
  · intro name v hm
    have := h _ hm
    simp only [Bool.and_eq_true] at this
    exact shapeCheck_spec this.1
  · intro name v hm
    have := h _ hm
    simp only [Bool.and_eq_true] at this
    exact markerCheck_spec this.2

/-- Every name that may be written without `;` may be written with it, for the same text. -/
theorem C51_table_semicolon (name v : Str) (h : (name, v) ∈ tokenNamedChars) (hs : ¬ [';'] <:+ name) :
    Map.look tokenNamedChars (name ++ [';']) = some v := by
  have hk : (tokenNamedChars.all fun e => decide (e.1.getLast? = some ';') ||
      decide (look tokenNamedChars (e.1 ++ [';']) = some e.2)) = true := by decide +kernel
  have := List.all_eq_true.1 hk _ h
  simp only [Bool.or_eq_true, decide_eq_true_iff] at this
  rcases this with h1 | h1
  · exfalso; apply hs
    obtain ⟨t, ht⟩ := List.getLast?_eq_some_iff.1 h1
    exact ⟨t, ht.symm⟩
  · exact h1

/-! ## C50 -/

theorem denotes_total (n : Nat) : ∃ c, Denotes n c := by
  by_cases h : n < 2 ^ 32
  · exact ⟨_, endCode_denotes (.inl ⟨rfl, h⟩)⟩
  · exact ⟨_, endCode_denotes (.inr ⟨rfl, by omega⟩)⟩

/-- **C50.** A decimal reference of any length, with or without its `;`, gives exactly the one
character its number denotes; in text and attributes alike; nothing after it is lost. -/
theorem C50_decimal (attr : Bool) (ds r con att : Str) (h0 : ds ≠ []) (hd : ∀ d ∈ ds, DecDigit d)
    (hr : NotNext DecDigit r) :
    ∃ c, Denotes (value 10 ds) c ∧
      Emitted attr ⟨'#' :: (ds ++ r), con, att⟩
        (consumeCharacterReference tokenNamedChars attr ⟨'#' :: (ds ++ r), con, att⟩) [c] (dropSemi r) := by
  obtain ⟨c, hc⟩ := denotes_total (value 10 ds)
  exact ⟨c, hc, C51_reference_exact _ C51_table_ok attr _ _ _ (.decimal h0 hd hr hc)⟩

/-- **C50.** Likewise for hexadecimal references, `x` and the digits in either case. -/
theorem C50_hexadecimal (attr : Bool) (x : Char) (hx : x = 'x' ∨ x = 'X') (ds r con att : Str)
    (h0 : ds ≠ []) (hd : ∀ d ∈ ds, HexDigit d) (hr : NotNext HexDigit r) :
    ∃ c, Denotes (value 16 ds) c ∧
      Emitted attr ⟨'#' :: x :: (ds ++ r), con, att⟩
        (consumeCharacterReference tokenNamedChars attr ⟨'#' :: x :: (ds ++ r), con, att⟩) [c]
        (dropSemi r) := by
  obtain ⟨c, hc⟩ := denotes_total (value 16 ds)
  exact ⟨c, hc, C51_reference_exact _ C51_table_ok attr _ _ _ (.hexadecimal hx h0 hd hr hc)⟩

/-- **C50.** The meaning of a number is one character, never NUL. -/
theorem C50_denotes (n : Nat) : ∃ c, Denotes n c ∧ c.toNat ≠ 0 ∧ ∀ d, Denotes n d → d = c := by
  obtain ⟨c, hc⟩ := denotes_total n
  refine ⟨c, hc, ?_, fun d hd => hd.functional hc⟩
  have hr : ('�' : Char).toNat ≠ 0 := by decide
  have hw : ∀ e ∈ windows1252, e.2.toNat ≠ 0 := by decide +kernel
  cases hc with
  | zero => exact hr
  | surrogate => exact hr
  | beyond => exact hr
  | windows h => exact hw _ h
  | plain h _ => exact h

/-- **C50.** `&#` and `&#x` without digits are kept as text. -/
theorem C50_no_digits (attr : Bool) (r con att : Str) :
    (NotNext (fun c => DecDigit c ∨ c = 'x' ∨ c = 'X') r →
      Emitted attr ⟨'#' :: r, con, att⟩
        (consumeCharacterReference tokenNamedChars attr ⟨'#' :: r, con, att⟩) ['&', '#'] r) ∧
    (∀ x, (x = 'x' ∨ x = 'X') → NotNext HexDigit r →
      Emitted attr ⟨'#' :: x :: r, con, att⟩
        (consumeCharacterReference tokenNamedChars attr ⟨'#' :: x :: r, con, att⟩) ['&', '#', x] r) :=
  ⟨fun h => C51_reference_exact _ C51_table_ok attr _ _ _ (.noDigits h),
   fun x hx h => C51_reference_exact _ C51_table_ok attr _ _ _ (.noHexDigits hx h)⟩

/-! ## C51 -/

/-- **C51.** With the engine's table: the longest name in the text is the one replaced, and exactly
its characters are read; only the attribute exception leaves it as written. -/
theorem C51_longest_name (attr : Bool) (name v r con att : Str)
    (h : Longest tokenNamedChars (name ++ r) name v) :
    (¬ Exempt attr name r → Emitted attr ⟨name ++ r, con, att⟩
      (consumeCharacterReference tokenNamedChars attr ⟨name ++ r, con, att⟩) v r) ∧
    (Exempt attr name r → Emitted attr ⟨name ++ r, con, att⟩
      (consumeCharacterReference tokenNamedChars attr ⟨name ++ r, con, att⟩) ('&' :: name) r) :=
  ⟨fun hx => C51_reference_exact _ C51_table_ok attr _ _ _ (.named h hx),
   fun hx => C51_reference_exact _ C51_table_ok attr _ _ _ (.exempt h hx)⟩

/-- **C51.** With the engine's table: when the text starts with no name and is not a numeric
reference, what was read and what is left together are the text unchanged, `&` included. -/
theorem C51_unknown_kept (attr : Bool) (text con att : Str)
    (hn : ∀ name v, (name, v) ∈ tokenNamedChars → ¬ name <+: text) (h : text.head? ≠ some '#') :
    ∃ out r, Emitted attr ⟨text, con, att⟩
      (consumeCharacterReference tokenNamedChars attr ⟨text, con, att⟩) out r ∧ out ++ r = '&' :: text := by
  obtain ⟨out, r, hR, he⟩ := C51_reference tokenNamedChars C51_table_ok attr ⟨text, con, att⟩
  refine ⟨out, r, he, ?_⟩
  simp only at hR
  cases hR with
  | decimal => simp at h
  | hexadecimal => simp at h
  | noDigits => simp at h
  | noHexDigits => simp at h
  | named hL _ => exact absurd hL.2.1 (hn _ _ (mem_of_look hL.1))
  | exempt => rfl
  | unknown => rfl
  | literal => rfl

/-! Examples: the hypotheses are met, and the results are the expected ones. -/

example : Emitted false ⟨"#x80;z".toList, [], []⟩
    (consumeCharacterReference tokenNamedChars false ⟨"#x80;z".toList, [], []⟩) ['€'] ['z'] :=
  C51_reference_exact _ C51_table_ok _ _ _ _
    (Ref.hexadecimal (x := 'x') (ds := ['8', '0']) (r := [';', 'z']) (.inl rfl) (by simp)
      (by unfold HexDigit; decide +kernel) (by intro c hc; simp at hc; subst hc; unfold HexDigit; decide +kernel)
      (.windows (by decide +kernel)))

example : value 10 "99999999999".toList = 99999999999 ∧ Denotes 99999999999 '�' :=
  ⟨by decide +kernel, .beyond (by omega)⟩

theorem longest_of_check {T : List (Str × Str)} {text name v : Str} (h1 : look T name = some v)
    (h2 : name <+: text)
    (h3 : (T.all fun e => decide (e.1.length ≤ name.length) || !e.1.isPrefixOf text) = true) :
    Longest T text name v := by
  refine ⟨h1, h2, fun n' v' hm hp => ?_⟩
  have := List.all_eq_true.1 h3 _ hm
  simp only [Bool.or_eq_true, decide_eq_true_iff, Bool.not_eq_true',
    List.isPrefixOf_iff_prefix.2 hp] at this
  simpa using this

/-- `&notit;` is `¬it;` in text and stays `&notit;` in an attribute; `&notin;` is `∉`. -/
example : Longest tokenNamedChars "notit;".toList "not".toList "¬".toList ∧
    Longest tokenNamedChars "notin;".toList "notin;".toList "∉".toList ∧
    Exempt true "not".toList "it;".toList ∧ ¬ Exempt false "not".toList "it;".toList :=
  ⟨longest_of_check (by decide +kernel) (by decide +kernel) (by decide +kernel),
   longest_of_check (by decide +kernel) (by decide +kernel) (by decide +kernel),
   ⟨rfl, by decide +kernel, 'i', by decide +kernel, .inr (by unfold AlphaNum; decide +kernel)⟩,
   by simp [Exempt]⟩

example : Emitted false ⟨"notit;".toList, [], []⟩
    (consumeCharacterReference tokenNamedChars false ⟨"notit;".toList, [], []⟩) "¬".toList "it;".toList :=
  (C51_longest_name false "not".toList "¬".toList "it;".toList [] []
    (longest_of_check (by decide +kernel) (by decide +kernel) (by decide +kernel))).1 (by simp [Exempt])

/-- no name starts the text `zzz;` -/
example : ∀ name v, (name, v) ∈ tokenNamedChars → ¬ name <+: "zzz;".toList := by
  intro name v hm hp
  have h : (tokenNamedChars.all fun e => !e.1.isPrefixOf "zzz;".toList) = true := by decide +kernel
  have := List.all_eq_true.1 h _ hm
  simp only [Bool.not_eq_true', List.isPrefixOf_iff_prefix.2 hp] at this
  simp at this

end Verif.CharRef
