import Verif.CssTok.Lemmas

/-! # Characters -/

namespace Verif.CssTok

open Standard

theorem ascii_all {P : Char → Prop} (h : ∀ i : Fin 128, P (Char.ofNat i)) (c : Char) (hc : c.toNat < 128) : P c := by
  have := h ⟨c.toNat, hc⟩
  simpa using this

theorem mem_small {l : Str} (h : l.all (fun c => decide (c.toNat < 128)) = true) {c : Char} (hc : c ∈ l) : c.toNat < 128 := by
  simpa using List.all_eq_true.1 h c hc

instance (c : Char) : Decidable (Digit c) := inferInstanceAs (Decidable (c ∈ digits))
instance (c : Char) : Decidable (HexDigit c) := inferInstanceAs (Decidable (c ∈ hexDigits))
instance (c : Char) : Decidable (IdentStart c) := inferInstanceAs (Decidable (c ∈ letters ∨ 0x80 ≤ c.toNat ∨ c = '_'))
instance (c : Char) : Decidable (IdentChar c) := inferInstanceAs (Decidable (IdentStart c ∨ Digit c ∨ c = '-'))
instance (c : Char) : Decidable (Whitespace c) := inferInstanceAs (Decidable (c ∈ ['\n', '\t', ' ']))
instance (c : Char) : Decidable (NonPrintable c) := inferInstanceAs (Decidable
  (c.toNat ≤ 8 ∨ c.toNat = 0x0B ∨ (0x0E ≤ c.toNat ∧ c.toNat ≤ 0x1F) ∨ c.toNat = 0x7F))
instance (c : Char) : Decidable (NotInUrl c) := inferInstanceAs (Decidable (c = '"' ∨ c = '\'' ∨ c = '(' ∨ NonPrintable c))

theorem isHex_iff (c : Char) : isHex c = true ↔ HexDigit c := by
  by_cases hc : c.toNat < 128
  · exact ascii_all (P := fun c => isHex c = true ↔ HexDigit c) (by decide +kernel) c hc
  · refine ⟨fun h => ?_, fun h => absurd (mem_small (by decide +kernel) h) hc⟩
    simp [isHex] at h
    omega

theorem digit_small {c : Char} (h : Digit c) : c.toNat < 128 := mem_small (by decide +kernel) h
theorem ws_small {c : Char} (h : Whitespace c) : c.toNat < 128 := mem_small (by decide +kernel) h

theorem isIdentStart_iff (c : Char) : isIdentStart c = true ↔ IdentStart c := by
  by_cases hc : c.toNat < 128
  · exact ascii_all (P := fun c => isIdentStart c = true ↔ IdentStart c) (by decide +kernel) c hc
  · have : 128 ≤ c.toNat := by omega
    simp [isIdentStart, IdentStart, this]

/-- a character for which the engine's classes are the standard's -/
def Plain (env : Env) (c : Char) : Prop :=
  c ≠ '\r' ∧ c ≠ '\x0B' ∧ c ≠ '\x0C' ∧ c ≠ Char.ofNat 0 ∧ (128 ≤ c.toNat → env.ws c = false ∧ env.num c = false)

theorem isNum_ascii (env : Env) {c : Char} (hc : c.toNat < 128) : env.isNum c = true ↔ Digit c := by
  refine ascii_all (P := fun c => env.isNum c = true ↔ Digit c) ?_ c hc
  intro i
  have : (Char.ofNat i).toNat < 128 := by
    revert i; decide +kernel
  simp only [Env.isNum, this, if_true]
  clear this
  revert i
  decide +kernel

theorem isNum_iff {env : Env} {c : Char} (h : Plain env c) : env.isNum c = true ↔ Digit c := by
  by_cases hc : c.toNat < 128
  · exact isNum_ascii env hc
  · refine ⟨fun hn => ?_, fun hd => absurd (digit_small hd) hc⟩
    simp [Env.isNum, hc, (h.2.2.2.2 (by omega)).2] at hn

theorem isWs_ascii (env : Env) {c : Char} (hc : c.toNat < 128) : env.isWs c = true ↔ Whitespace c ∨ c = '\r' ∨ c = '\x0B' ∨ c = '\x0C' := by
  refine ascii_all (P := fun c => env.isWs c = true ↔ Whitespace c ∨ c = '\r' ∨ c = '\x0B' ∨ c = '\x0C') ?_ c hc
  intro i
  have : (Char.ofNat i).toNat < 128 := by
    revert i; decide +kernel
  simp only [Env.isWs, this, if_true]
  clear this
  revert i
  decide +kernel

theorem isWs_iff {env : Env} {c : Char} (h : Plain env c) : env.isWs c = true ↔ Whitespace c := by
  by_cases hc : c.toNat < 128
  · rw [isWs_ascii env hc]
    simp [h.1, h.2.1, h.2.2.1]
  · refine ⟨fun hn => ?_, fun hd => absurd (ws_small hd) hc⟩
    simp [Env.isWs, hc, (h.2.2.2.2 (by omega)).1] at hn

theorem isIdentChar_iff {env : Env} {c : Char} (h : Plain env c) : env.isIdentChar c = true ↔ IdentChar c := by
  simp only [Env.isIdentChar, Bool.or_eq_true, isIdentStart_iff, isNum_iff h, decide_eq_true_eq, IdentChar, or_assoc]

theorem nonPrintable_iff (c : Char) : nonPrintable c = true ↔ NonPrintable c := by
  simp only [nonPrintable, NonPrintable, Bool.or_eq_true, Bool.and_eq_true, decide_eq_true_eq]
  omega

/-! ## The start of a text -/

theorem starts_cons {P : Char → Prop} {c : Char} {s : Str} : Starts P (c :: s) ↔ P c := by
  constructor
  · rintro ⟨_, _, e, h⟩; cases e; exact h
  · intro h; exact ⟨c, s, rfl, h⟩

theorem starts_nil {P : Char → Prop} : ¬ Starts P [] := by
  rintro ⟨_, _, e, _⟩; cases e

theorem validEscape_cons {c : Char} {s : Str} : ValidEscape (c :: s) ↔ c = '\\' ∧ s.head? ≠ some '\n' := by
  constructor
  · rintro ⟨_, e, h⟩; cases e; exact ⟨rfl, h⟩
  · rintro ⟨rfl, h⟩; exact ⟨s, rfl, h⟩

theorem not_validEscape_nil : ¬ ValidEscape [] := by
  rintro ⟨_, e, _⟩; cases e

theorem isEscape_iff (s : Str) : isEscape 0 s = true ↔ ValidEscape s := by
  cases s with
  | nil => simp [isEscape, not_validEscape_nil]
  | cons c s => simp [isEscape, validEscape_cons, List.head?_eq_getElem?]

theorem isEscape_one (c : Char) (s : Str) : isEscape 1 (c :: s) = isEscape 0 s := by
  simp [isEscape]

theorem toChar_starts {s : Str} {p : Char → Bool} {P : Char → Prop} (h0 : p (Char.ofNat 0) = false)
    (h : ∀ c ∈ s, (p c = true ↔ P c)) : p (toChar s[0]?) = true ↔ Starts P s := by
  cases s with
  | nil => simp [toChar, h0, starts_nil]
  | cons c s => simp [toChar, starts_cons, h c]

theorem any_starts {s : Str} {p : Char → Bool} {P : Char → Prop} (h : ∀ c ∈ s, (p c = true ↔ P c)) :
    s[0]?.any p = true ↔ Starts P s := by
  cases s with
  | nil => simp [starts_nil]
  | cons c s => simp [starts_cons, h c]

theorem startsIdent_iff (s : Str) : startsIdent s = true ↔ StartsIdent s := by
  cases s with
  | nil =>
    constructor
    · intro h; exact absurd h (by decide)
    · rintro (h | h | ⟨_, h, _⟩)
      · exact absurd h starts_nil
      · exact absurd h not_validEscape_nil
      · cases h
  | cons c s =>
    unfold startsIdent StartsIdent
    rw [isEscape_one]
    simp only [List.getElem?_cons_zero, Option.some.injEq, List.getElem?_cons_succ, starts_cons, toChar, Option.getD_some]
    split_ifs with h1 h2
    · subst h1
      have a : ¬ IdentStart '-' := by decide
      have b : ¬ ValidEscape ('-' :: s) := by rw [validEscape_cons]; simp
      simp only [a, b, false_or, List.cons.injEq, true_and, exists_eq_left', Bool.or_eq_true, decide_eq_true_eq, isEscape_iff]
      refine or_congr ?_ Iff.rfl
      have := toChar_starts (s := s) (p := fun c => isIdentStart c || decide (c = '-')) (P := fun c => IdentStart c ∨ c = '-')
        (by decide) (fun c _ => by simp [isIdentStart_iff])
      rw [← this]
      cases s <;> simp [toChar]
    · subst h2
      have a : ¬ IdentStart '\\' := by decide
      simp [a, isEscape_iff]
    · have b : ¬ ValidEscape (c :: s) := by rw [validEscape_cons]; simp [h2]
      simp [b, h1, isIdentStart_iff]

end Verif.CssTok
