import Verif.CharRef.Spec
import Mathlib.Tactic.Common

set_option linter.unusedVariables false
namespace Verif.CharRef

open Verif.Map

/-! ## characters -/

theorem char_cases {P : Char → Prop} {c : Char} {n : Nat} (h : c.toNat = n) (hv : Nat.isValidChar n)
    (hp : P (Char.ofNat n)) : P c := by
  have : c = Char.ofNat n := by
    rw [← h]; exact (Char.ofNat_toNat c).symm
  rw [this]; exact hp

theorem mem_codes {l : List Char} {c : Char} : c ∈ l ↔ c.toNat ∈ l.map Char.toNat := by
  constructor
  · intro h; exact List.mem_map_of_mem h
  · intro h
    obtain ⟨d, hd, e⟩ := List.mem_map.1 h
    have : d = c := by
      rw [← Char.ofNat_toNat d, ← Char.ofNat_toNat c, e]
    exact this ▸ hd

theorem mem_range_lt {l : List Nat} {lo hi n : Nat} (hl : ∀ i, i < hi + 1 → (i ∈ l ↔ lo ≤ i)) :
    lo ≤ n ∧ n ≤ hi → n ∈ l := fun h => (hl n (by omega)).2 h.1

theorem dec_iff (c : Char) : isDec c = true ↔ DecDigit c := by
  unfold isDec DecDigit
  rw [mem_codes, decide_eq_true_iff]
  rw [show "0123456789".toList.map Char.toNat = [48,49,50,51,52,53,54,55,56,57] from by decide +kernel]
  simp only [List.mem_cons, List.not_mem_nil, or_false]
  omega

theorem hex_iff (c : Char) : (isDec c || isHexUpper c || isHexLower c) = true ↔ HexDigit c := by
  unfold isDec isHexUpper isHexLower HexDigit
  rw [mem_codes]
  simp only [Bool.or_eq_true, decide_eq_true_iff]
  rw [show "0123456789abcdefABCDEF".toList.map Char.toNat =
    [48,49,50,51,52,53,54,55,56,57,97,98,99,100,101,102,65,66,67,68,69,70] from by decide +kernel]
  simp only [List.mem_cons, List.not_mem_nil, or_false]
  omega

theorem alnum_iff (c : Char) : isAlnum c = true ↔ AlphaNum c := by
  unfold isAlnum AlphaNum
  rw [mem_codes]
  simp only [Bool.or_eq_true, Bool.and_eq_true, decide_eq_true_iff]
  rw [show "0123456789abcdefghijklmnopqrstuvwxyzABCDEFGHIJKLMNOPQRSTUVWXYZ".toList.map Char.toNat =
    [48,49,50,51,52,53,54,55,56,57,
     97,98,99,100,101,102,103,104,105,106,107,108,109,110,111,112,113,114,115,116,117,118,119,120,121,122,
     65,66,67,68,69,70,71,72,73,74,75,76,77,78,79,80,81,82,83,84,85,86,87,88,89,90] from by decide +kernel]
  simp only [List.mem_cons, List.not_mem_nil, or_false]
  omega

theorem dec_value {c : Char} (h : isDec c = true) : c.toNat - 0x30 = digitValue c := by
  have := (dec_iff c).1 h
  revert c
  intro c _ h
  have : ∀ d ∈ "0123456789".toList, d.toNat - 0x30 = digitValue d := by decide +kernel
  exact this c h

theorem upper_value {c : Char} (h : isHexUpper c = true) : c.toNat - 0x37 = digitValue c := by
  have hm : c ∈ "ABCDEF".toList := by
    rw [mem_codes, show "ABCDEF".toList.map Char.toNat = [65,66,67,68,69,70] from by decide +kernel]
    simp only [isHexUpper, decide_eq_true_iff] at h
    simp only [List.mem_cons, List.not_mem_nil, or_false]
    omega
  have : ∀ d ∈ "ABCDEF".toList, d.toNat - 0x37 = digitValue d := by decide +kernel
  exact this c hm

theorem lower_value {c : Char} (h : isHexLower c = true) : c.toNat - 0x57 = digitValue c := by
  have hm : c ∈ "abcdef".toList := by
    rw [mem_codes, show "abcdef".toList.map Char.toNat = [97,98,99,100,101,102] from by decide +kernel]
    simp only [isHexLower, decide_eq_true_iff] at h
    simp only [List.mem_cons, List.not_mem_nil, or_false]
    omega
  have : ∀ d ∈ "abcdef".toList, d.toNat - 0x57 = digitValue d := by decide +kernel
  exact this c hm

/-! ## the accumulator -/

/-- the accumulator holds `n`, or overflowed because `n` does not fit -/
def Holds (code : Option Nat) (n : Nat) : Prop :=
  (code = some n ∧ n < 2 ^ 32) ∨ (code = none ∧ 2 ^ 32 ≤ n)

theorem Holds.push {code : Option Nat} {n radix i : Nat} (h : Holds code n) (hr : 1 ≤ radix) :
    Holds (accumulate code radix i) (n * radix + i) := by
  rcases h with ⟨rfl, h⟩ | ⟨rfl, h⟩
  · simp only [accumulate]
    split
    · split
      · exact .inl ⟨rfl, by assumption⟩
      · exact .inr ⟨rfl, by omega⟩
    · exact .inr ⟨rfl, by omega⟩
  · refine .inr ⟨rfl, ?_⟩
    calc 2 ^ 32 ≤ n := h
      _ ≤ n * radix := Nat.le_mul_of_pos_right n hr
      _ ≤ _ := Nat.le_add_right _ _

theorem decimalLoop_spec {code : Option Nat} {n : Nat} (h : Holds code n) (s : Str) :
    ∃ ds r, s = ds ++ r ∧ (∀ d ∈ ds, DecDigit d) ∧ NotNext DecDigit r ∧
      (decimalLoop code s).2 = dropSemi r ∧
      Holds (decimalLoop code s).1 (ds.foldl (fun n d => n * 10 + digitValue d) n) := by
  induction s generalizing code n with
  | nil => exact ⟨[], [], rfl, by simp, by simp [NotNext], rfl, h⟩
  | cons c r ih =>
    simp only [decimalLoop]
    split
    · next hc =>
      obtain ⟨ds, r', e, h1, h2, h3, h4⟩ := ih (h.push (radix := 10) (i := c.toNat - 0x30) (by omega))
      refine ⟨c :: ds, r', by simp [e], ?_, h2, h3, ?_⟩
      · intro d hd
        rcases List.mem_cons.1 hd with rfl | hd
        · exact (dec_iff _).1 hc
        · exact h1 d hd
      · rw [dec_value hc] at h4
        rw [dec_value hc]; exact h4
    · next hc =>
      have hn : NotNext DecDigit (c :: r) := by
        intro d hd; simp at hd; subst hd; exact fun h => hc ((dec_iff _).2 h)
      split
      · next hs => subst hs; exact ⟨[], _, rfl, by simp, hn, rfl, h⟩
      · next hs =>
        refine ⟨[], _, rfl, by simp, hn, ?_, h⟩
        unfold dropSemi
        split
        · next e => cases e; exact absurd rfl hs
        · rfl

theorem hexLoop_spec {code : Option Nat} {n : Nat} (h : Holds code n) (s : Str) :
    ∃ ds r, s = ds ++ r ∧ (∀ d ∈ ds, HexDigit d) ∧ NotNext HexDigit r ∧
      (hexLoop code s).2 = dropSemi r ∧
      Holds (hexLoop code s).1 (ds.foldl (fun n d => n * 16 + digitValue d) n) := by
  have key : ∀ (c : Char) (r : Str) (i : Nat), i = digitValue c → HexDigit c →
      (∀ {code : Option Nat} {n : Nat}, Holds code n → ∃ ds r', r = ds ++ r' ∧ (∀ d ∈ ds, HexDigit d) ∧
        NotNext HexDigit r' ∧ (hexLoop code r).2 = dropSemi r' ∧
        Holds (hexLoop code r).1 (ds.foldl (fun n d => n * 16 + digitValue d) n)) →
      ∀ {code : Option Nat} {n : Nat}, Holds code n →
      ∃ ds r', c :: r = ds ++ r' ∧ (∀ d ∈ ds, HexDigit d) ∧ NotNext HexDigit r' ∧
        (hexLoop (accumulate code 16 i) r).2 = dropSemi r' ∧
        Holds (hexLoop (accumulate code 16 i) r).1 (ds.foldl (fun n d => n * 16 + digitValue d) n) := by
    intro c r i hi hc ih code n h
    obtain ⟨ds, r', e, h1, h2, h3, h4⟩ := ih (h.push (radix := 16) (i := i) (by omega))
    refine ⟨c :: ds, r', by simp [e], ?_, h2, h3, ?_⟩
    · intro d hd
      rcases List.mem_cons.1 hd with rfl | hd
      · exact hc
      · exact h1 d hd
    · subst hi; exact h4
  induction s generalizing code n with
  | nil => exact ⟨[], [], rfl, by simp, by simp [NotNext], rfl, h⟩
  | cons c r ih =>
    simp only [hexLoop]
    split
    · next hc => exact key c r _ (dec_value hc) ((hex_iff c).1 (by simp [hc])) ih h
    · next h1 =>
      split
      · next hc => exact key c r _ (upper_value hc) ((hex_iff c).1 (by simp [hc])) ih h
      · next h2 =>
        split
        · next hc => exact key c r _ (lower_value hc) ((hex_iff c).1 (by simp [hc])) ih h
        · next h3 =>
          have hn : NotNext HexDigit (c :: r) := by
            intro d hd; simp at hd; subst hd
            intro h; have := (hex_iff _).2 h; simp_all
          split
          · next hs => subst hs; exact ⟨[], _, rfl, by simp, hn, rfl, h⟩
          · next hs =>
            refine ⟨[], _, rfl, by simp, hn, ?_, h⟩
            unfold dropSemi
            split
            · next e => cases e; exact absurd rfl hs
            · rfl

/-! ## the final code point -/

theorem windows_small : ∀ n < 160, isControlChar n = true ∨ n = 13 →
    n ≠ 0 → ∃ c, (Denotes n c) ∧ charFromU32 ((look tokenReplacements n).getD n) = c := by
  intro n hn hc h0
  by_cases hw : ∃ c, (n, c) ∈ windows1252
  · obtain ⟨c, hw⟩ := hw
    refine ⟨c, .windows hw, ?_⟩
    have : ∀ e ∈ windows1252, charFromU32 ((look tokenReplacements e.1).getD e.1) = e.2 := by
      decide +kernel
    exact this (n, c) hw
  · refine ⟨Char.ofNat n, ?_, ?_⟩
    · have hv : (Char.ofNat n).toNat = n := by
        rw [Char.ofNat, dif_pos (by left; omega)]; rfl
      have hp : Denotes (Char.ofNat n).toNat (Char.ofNat n) := by
        refine .plain (by rw [hv]; exact h0) ?_
        intro d hd; rw [hv] at hd; exact hw ⟨d, hd⟩
      rw [hv] at hp; exact hp
    · have key : ∀ m < 160, m ≠ 0 → (windows1252.all fun e => decide (e.1 ≠ m)) = true →
          charFromU32 ((look tokenReplacements m).getD m) = Char.ofNat m := by decide +kernel
      refine key n hn h0 ?_
      rw [List.all_eq_true]
      intro e he
      simp only [decide_eq_true_eq]
      intro e1; exact hw ⟨e.2, by rw [← e1]; exact he⟩

theorem windows_range : ∀ e ∈ windows1252, 128 ≤ e.1 ∧ e.1 < 160 := by decide +kernel

theorem endCode_denotes {code : Option Nat} {n : Nat} (h : Holds code n) :
    Denotes n (charFromU32 (endCode code)) := by
  have hrep : charFromU32 0xFFFD = '�' := by decide +kernel
  have hnr : (isControlChar 0xFFFD || decide ((0xFFFD : Nat) = 0x0D)) = false := by decide +kernel
  have hsr : isSurrogate 0xFFFD = false := by decide +kernel
  rcases h with ⟨rfl, h⟩ | ⟨rfl, h⟩
  · by_cases h0 : n = 0
    · subst h0
      have : endCode (some 0) = 0xFFFD := by decide +kernel
      rw [this, hrep]; exact .zero
    · by_cases hb : n > 0x10FFFF
      · have : endCode (some n) = 0xFFFD := by
          simp only [endCode, Option.getD_some, Option.isNone_some, h0, hb, false_and, if_false, true_or,
            if_true]
          rw [hsr]
          simp only [Bool.false_eq_true, if_false, hnr]
        rw [this, hrep]; exact .beyond (by omega)
      · by_cases hs : isSurrogate n = true
        · have : endCode (some n) = 0xFFFD := by
            simp only [endCode, Option.getD_some, Option.isNone_some, h0, hb, false_and, if_false, false_or,
              Bool.false_eq_true, hs, if_true, hnr]
          rw [this, hrep]
          simp only [isSurrogate, decide_eq_true_iff] at hs
          exact .surrogate (by omega) (by omega)
        · have he : endCode (some n) =
              if isControlChar n || decide (n = 0x0D) then (look tokenReplacements n).getD n else n := by
            simp only [endCode, Option.getD_some, Option.isNone_some, h0, hb, false_and, if_false, false_or,
              Bool.false_eq_true, hs]
          rw [he]
          split
          · next hc =>
            simp only [Bool.or_eq_true, decide_eq_true_iff] at hc
            have hlt : n < 160 := by
              rcases hc with hc | hc
              · simp only [isControlChar] at hc
                split at hc
                · simp at hc
                · simp only [Bool.or_eq_true, decide_eq_true_iff] at hc; omega
              · omega
            obtain ⟨c, hd, e⟩ := windows_small n hlt hc h0
            rw [e]; exact hd
          · next hc =>
            have hv : n.isValidChar := by
              simp only [isSurrogate, decide_eq_true_iff] at hs
              unfold Nat.isValidChar; omega
            have e1 : charFromU32 n = Char.ofNat n := by simp only [charFromU32, if_pos hv]
            have e2 : (Char.ofNat n).toNat = n := by
              rw [Char.ofNat, dif_pos hv]; rfl
            rw [e1]
            have hp : Denotes (Char.ofNat n).toNat (Char.ofNat n) := by
              refine .plain (by rw [e2]; exact h0) ?_
              intro d hd
              rw [e2] at hd
              have hr := windows_range _ hd
              apply hc
              have : isControlChar n = true := by
                simp only [isControlChar]
                rw [if_neg]
                · simp only [Bool.or_eq_true, decide_eq_true_iff]; right; simp at hr; omega
                · simp only [List.mem_cons, List.not_mem_nil, or_false]; simp at hr; omega
              rw [this]; rfl
            rw [e2] at hp; exact hp
  · have : endCode none = 0xFFFD := by decide +kernel
    rw [this, hrep]
    exact .beyond (by omega)

theorem Denotes.functional {n : Nat} {c d : Char} (h : Denotes n c) (h' : Denotes n d) : c = d := by
  have hu : ∀ e ∈ windows1252, ∀ e' ∈ windows1252, e.1 = e'.1 → e.2 = e'.2 := by decide +kernel
  have hc : ∀ c : Char, ¬ (55296 ≤ c.toNat ∧ c.toNat ≤ 57343) ∧ c.toNat ≤ 1114111 := by
    intro c
    have := c.valid
    rcases this with h | h
    · have : c.toNat < 0xD800 := h
      omega
    · have : 0xDFFF < c.toNat ∧ c.toNat < 0x110000 := h
      omega
  have hinj : ∀ c d : Char, c.toNat = d.toNat → c = d := by
    intro c d e; rw [← Char.ofNat_toNat c, ← Char.ofNat_toNat d, e]
  cases h with
  | zero =>
    generalize hn : (0 : Nat) = n at h'
    cases h' with
    | zero => rfl
    | surrogate => rfl
    | beyond => rfl
    | windows hw => have := windows_range _ hw; simp at this; omega
    | plain h1 h2 => omega
  | surrogate a b =>
    cases h' with
    | zero => rfl
    | surrogate => rfl
    | beyond => rfl
    | windows hw => have := windows_range _ hw; simp at this; omega
    | plain h1 h2 => exact absurd ⟨a, b⟩ (hc d).1
  | beyond a =>
    cases h' with
    | zero => rfl
    | surrogate => rfl
    | beyond => rfl
    | windows hw => have := windows_range _ hw; simp at this; omega
    | plain h1 h2 => have := (hc d).2; omega
  | windows hw =>
    have hr := windows_range _ hw
    simp at hr
    generalize hn : n = m at h'
    cases h' with
    | zero => omega
    | surrogate => omega
    | beyond => omega
    | windows hw' => subst hn; exact hu _ hw _ hw' rfl
    | plain h1 h2 => subst hn; exact absurd hw (h2 _)
  | plain h1 h2 =>
    generalize hn : c.toNat = m at h'
    cases h' with
    | zero => exact absurd hn h1
    | surrogate a b => exact absurd ⟨by omega, by omega⟩ (hc c).1
    | beyond => have := (hc c).2; omega
    | windows hw' => subst hn; exact absurd hw' (h2 _)
    | plain h3 h4 => exact hinj _ _ hn

/-! ## names -/

theorem strLen_alnum {s : Str} (h : ∀ c ∈ s, c.toNat < 128) : strLen s = s.length := by
  unfold strLen
  induction s with
  | nil => rfl
  | cons c r ih =>
    simp only [List.map_cons, List.sum_cons, List.length_cons]
    rw [ih (fun d hd => h d (by simp [hd]))]
    have : lenUtf8 c = 1 := by simp [lenUtf8, h c (by simp)]
    omega

theorem alnum_lt {c : Char} (h : AlphaNum c) : c.toNat < 128 := by
  have := (alnum_iff c).2 h
  simp only [isAlnum, Bool.or_eq_true, Bool.and_eq_true, decide_eq_true_iff] at this
  omega

theorem TableOk.ascii {T : List (Str × Str)} (h : TableOk T) {name v : Str} (hm : (name, v) ∈ T) :
    ∀ c ∈ name, c.toNat < 128 := by
  obtain ⟨run, h1, h2, rfl | rfl⟩ := h.shape name v hm
  · exact fun c hc => alnum_lt (h2 c hc)
  · intro c hc
    rcases List.mem_append.1 hc with hc | hc
    · exact alnum_lt (h2 c hc)
    · simp only [List.mem_singleton] at hc; subst hc; decide

theorem foldl_max_le (l : List Nat) (a : Nat) : a ≤ l.foldl max a ∧ ∀ x ∈ l, x ≤ l.foldl max a := by
  induction l generalizing a with
  | nil => simp
  | cons b r ih =>
    simp only [List.foldl_cons, List.mem_cons]
    obtain ⟨h1, h2⟩ := ih (max a b)
    refine ⟨by omega, ?_⟩
    rintro x (rfl | hx)
    · omega
    · exact h2 x hx

theorem TableOk.longest {T : List (Str × Str)} (h : TableOk T) {name v : Str} (hm : (name, v) ∈ T) :
    name.length ≤ longestEntityLength T := by
  rw [← strLen_alnum (h.ascii hm)]
  exact (foldl_max_le _ 0).2 _ (List.mem_map_of_mem (f := fun e : Str × Str => strLen e.1) hm)

theorem getSlice_length (n : Nat) (rest : Str) : (getSlice n rest).length = n := by
  simp [getSlice]; omega

theorem flatten_singletons (l : Str) : (l.map (fun c => [c])).flatten = l := by
  induction l with
  | nil => rfl
  | cons c r ih => simp [ih]

theorem getSlice_take_le {n i : Nat} {rest : Str} (hi : i ≤ n) (hr : i ≤ rest.length) :
    ((getSlice n rest).take i).flatten = rest.take i := by
  unfold getSlice
  rw [List.take_append_of_le_length (by simp; omega), ← List.map_take, flatten_singletons,
    List.take_take, Nat.min_eq_left hi]

theorem getSlice_take_gt {n i : Nat} {rest : Str} (hi : i ≤ n) (hr : rest.length < i) :
    "StreamEnd".toList <:+: ((getSlice n rest).take i).flatten := by
  unfold getSlice
  have hl : ((rest.take n).map (fun c => [c])).length = rest.length := by simp; omega
  rw [List.take_append, hl, List.flatten_append]
  obtain ⟨k, hk⟩ : ∃ k, i - rest.length = k + 1 := ⟨i - rest.length - 1, by omega⟩
  obtain ⟨m, hm⟩ : ∃ m, n - rest.length = m + 1 := ⟨n - rest.length - 1, by omega⟩
  rw [hk, hm, List.replicate_succ, List.take_succ_cons, List.flatten_cons]
  exact ⟨_, _, (List.append_assoc _ _ _)⟩

theorem look_key {T : List (Str × Str)} {e : Str} (h : (look T e).isSome) : ∃ v, (e, v) ∈ T := by
  obtain ⟨v, hv⟩ := Option.isSome_iff_exists.1 h
  exact ⟨v, mem_of_look hv⟩

theorem key_look {T : List (Str × Str)} {e v : Str} (h : (e, v) ∈ T) : (look T e).isSome := by
  induction T with
  | nil => simp at h
  | cons x r ih =>
    obtain ⟨a, b⟩ := x
    simp only [look]
    split
    · rfl
    · next hne =>
      rcases List.mem_cons.1 h with h | h
      · cases h; exact absurd rfl hne
      · exact ih h

theorem tryPrefixes_spec {T : List (Str × Str)} (h : TableOk T) {n : Nat} {rest : Str} (i : Nat)
    (hi : i ≤ n) :
    (∀ e, tryPrefixes T (getSlice n rest) i = some e →
      (look T e).isSome ∧ e <+: rest ∧
      ∀ e' v', (e', v') ∈ T → e' <+: rest → e'.length ≤ i → e'.length ≤ e.length) ∧
    (tryPrefixes T (getSlice n rest) i = none →
      ∀ e' v', (e', v') ∈ T → e' <+: rest → ¬ e'.length ≤ i) := by
  induction i with
  | zero =>
    simp only [tryPrefixes]
    constructor
    · intro e he
      split at he
      · next hl =>
        cases he
        exact ⟨hl, List.nil_prefix, fun e' v' _ _ hle => hle⟩
      · cases he
    · intro he e' v' hm hp hle
      split at he
      · cases he
      · next hl =>
        have : e' = [] := List.length_eq_zero_iff.1 (by omega)
        subst this
        exact hl (key_look hm)
  | succ i ih =>
    obtain ⟨ih1, ih2⟩ := ih (by omega)
    have hno : ∀ e' v', (e', v') ∈ T → e' <+: rest → e'.length ≤ i + 1 →
        ¬ (look T ((getSlice n rest).take (i + 1)).flatten).isSome = true → e'.length ≤ i := by
      intro e' v' hm hp hle hl
      by_contra hc
      have hlen : e'.length = i + 1 := by omega
      have hr := hp.length_le
      have e1 := getSlice_take_le (n := n) (i := i + 1) (rest := rest) hi (by omega)
      apply hl
      rw [e1, ← hlen, ← List.prefix_iff_eq_take.1 hp]
      exact key_look hm
    simp only [tryPrefixes]
    constructor
    · intro e he
      split at he
      · next hl =>
        cases he
        by_cases hr : i + 1 ≤ rest.length
        · have e1 := getSlice_take_le (n := n) (i := i + 1) (rest := rest) hi hr
          rw [e1] at hl ⊢
          refine ⟨hl, List.take_prefix _ _, ?_⟩
          intro e' v' _ _ hle
          rw [List.length_take]; omega
        · obtain ⟨v, hv⟩ := look_key hl
          exact absurd (getSlice_take_gt (n := n) (i := i + 1) (rest := rest) hi (by omega))
            (h.noMarker _ _ hv)
      · next hl =>
        obtain ⟨h1, h2, h3⟩ := ih1 e he
        exact ⟨h1, h2, fun e' v' hm hp hle => h3 e' v' hm hp (hno e' v' hm hp hle hl)⟩
    · intro he e' v' hm hp hle
      split at he
      · cases he
      · next hl => exact ih2 he e' v' hm hp (hno e' v' hm hp hle hl)

theorem findEntity_some {T : List (Str × Str)} (h : TableOk T) {rest e : Str}
    (he : findEntity T rest = some e) : ∃ v r, look T e = some v ∧ rest = e ++ r ∧
      strLen e = e.length ∧ Longest T rest e v := by
  unfold findEntity at he
  rw [getSlice_length] at he
  obtain ⟨h1, h2, h3⟩ := (tryPrefixes_spec h (rest := rest) _ (Nat.le_refl _)).1 e he
  obtain ⟨v, hv⟩ := Option.isSome_iff_exists.1 h1
  obtain ⟨r, hr⟩ := h2
  exact ⟨v, r, hv, hr.symm, strLen_alnum (h.ascii (mem_of_look hv)), hv, ⟨r, hr⟩,
    fun e' v' hm hp => h3 e' v' hm hp (h.longest hm)⟩

theorem findEntity_none {T : List (Str × Str)} (h : TableOk T) {rest : Str}
    (he : findEntity T rest = none) : ∀ name v, (name, v) ∈ T → ¬ name <+: rest := by
  unfold findEntity at he
  rw [getSlice_length] at he
  intro name v hm hp
  exact (tryPrefixes_spec h (rest := rest) _ (Nat.le_refl _)).2 he name v hm hp (h.longest hm)

theorem flush_emitted (attr : Bool) (s : St) (r out : Str) :
    Emitted attr s (flush attr { s with rest := r } out) out r := by
  cases attr <;> simp [flush, Emitted]

theorem ambiguous_spec (attr : Bool) (con att : Str) (s : Str) :
    ∃ run r, s = run ++ r ∧ (∀ c ∈ run, AlphaNum c) ∧ NotNext AlphaNum r ∧
      Emitted attr ⟨s, con, att⟩ (ambiguousAmpersand attr con att s) run r := by
  induction s generalizing con att with
  | nil => exact ⟨[], [], rfl, by simp, by simp [NotNext], by cases attr <;> simp [ambiguousAmpersand, Emitted]⟩
  | cons c t ih =>
    simp only [ambiguousAmpersand]
    by_cases hc : isAlnum c = true
    · rw [if_pos hc]
      cases attr with
      | true =>
        obtain ⟨run, r, e, h1, h2, h3⟩ := ih con (att ++ [c])
        refine ⟨c :: run, r, by simp [e], ?_, h2, ?_⟩
        · intro d hd
          rcases List.mem_cons.1 hd with rfl | hd
          · exact (alnum_iff _).1 hc
          · exact h1 d hd
        · simpa [Emitted] using h3
      | false =>
        obtain ⟨run, r, e, h1, h2, h3⟩ := ih (con ++ [c]) att
        refine ⟨c :: run, r, by simp [e], ?_, h2, ?_⟩
        · intro d hd
          rcases List.mem_cons.1 hd with rfl | hd
          · exact (alnum_iff _).1 hc
          · exact h1 d hd
        · simpa [Emitted] using h3
    · rw [if_neg hc]
      refine ⟨[], c :: t, rfl, by simp, ?_, by cases attr <;> simp [Emitted]⟩
      intro d hd; simp at hd; subst hd
      exact fun h => hc ((alnum_iff _).2 h)

theorem exempt_iff (attr : Bool) (e r : Str) :
    (attr && !endsSemi e && legacyNext r) = true ↔ Exempt attr e r := by
  have h1 : endsSemi e = true ↔ [';'] <:+ e := by
    unfold endsSemi
    rw [decide_eq_true_iff, List.getLast?_eq_some_iff]
    constructor
    · rintro ⟨t, ht⟩; exact ⟨t, ht.symm⟩
    · rintro ⟨t, ht⟩; exact ⟨t, ht.symm⟩
  have h2 : legacyNext r = true ↔ ∃ c, r.head? = some c ∧ (c = '=' ∨ AlphaNum c) := by
    cases r with
    | nil => simp [legacyNext]
    | cons c t =>
      simp only [legacyNext, Bool.or_eq_true, decide_eq_true_iff, List.head?_cons, Option.some.injEq,
        alnum_iff]
      constructor
      · intro h; exact ⟨c, rfl, h⟩
      · rintro ⟨d, rfl, h⟩; exact h
  unfold Exempt
  simp only [Bool.and_eq_true, Bool.not_eq_true', h2, ← h1]
  simp [and_assoc]

/-! ## C50, C51 -/

/-- **C50, C51.** After a `&`, for every table of names of the right shape, every text and both
places where references occur, the output and the unread rest are the ones of the HTML rules, and
the output is appended to the right buffer. -/
theorem C51_reference (T : List (Str × Str)) (hT : TableOk T) (attr : Bool) (s : St) :
    ∃ out r, Ref T attr s.rest out r ∧ Emitted attr s (consumeCharacterReference T attr s) out r := by
  obtain ⟨rest, con, att⟩ := s
  cases rest with
  | nil =>
    exact ⟨['&'], [], .literal (by simp [NotNext]), flush_emitted attr ⟨[], con, att⟩ [] ['&']⟩
  | cons c r =>
    simp only [consumeCharacterReference]
    by_cases ha : isAlnum c = true
    · rw [if_pos ha]
      simp only [named]
      split
      · next e he =>
        obtain ⟨v, r', hv, hr, hl, hL⟩ := findEntity_some hT he
        simp only [hl]
        have hd : List.drop e.length (c :: r) = r' := by rw [hr]; simp
        rw [hd]
        rw [hr] at hL
        by_cases hx : (attr && !endsSemi e && legacyNext r') = true
        · rw [if_pos hx]
          refine ⟨_, _, ?_, flush_emitted attr _ r' _⟩
          rw [hr]; exact .exempt hL ((exempt_iff _ _ _).1 hx)
        · rw [if_neg hx]
          refine ⟨_, _, ?_, flush_emitted attr _ r' _⟩
          rw [hr, hv]
          exact .named hL (fun h => hx ((exempt_iff _ _ _).2 h))
      · next he =>
        have hn := findEntity_none hT he
        obtain ⟨run, r', e, h1, h2, h3⟩ := ambiguous_spec attr
          (flush attr ⟨c :: r, con, att⟩ ['&']).consumed (flush attr ⟨c :: r, con, att⟩ ['&']).attrValue
          (c :: r)
        refine ⟨'&' :: run, r', ?_, ?_⟩
        · rw [e] at hn ⊢
          refine .unknown ?_ h1 h2 hn
          rintro rfl
          simp only [List.nil_append] at e
          exact h2 c (by rw [← e]; rfl) ((alnum_iff _).1 ha)
        · cases attr <;> simpa [Emitted, flush] using h3
    · rw [if_neg ha]
      by_cases hh : c = '#'
      · subst hh
        rw [if_pos rfl]
        have dec : ∀ (t : Str), (∀ d, t.head? = some d → ¬ (d = 'X' ∨ d = 'x')) → ∃ out r',
            Ref T attr ('#' :: t) out r' ∧
            Emitted attr ⟨'#' :: t, con, att⟩ (decimalStart attr ⟨t, con, att⟩) out r' := by
          intro t ht
          cases t with
          | nil =>
            exact ⟨_, _, .noDigits (by simp [NotNext]), flush_emitted attr ⟨'#' :: [], con, att⟩ [] _⟩
          | cons d t =>
            simp only [decimalStart]
            by_cases hd : isDec d = true
            · rw [if_pos hd]
              obtain ⟨ds, r', e, h1, h2, h3, h4⟩ := decimalLoop_spec
                (code := some 0) (n := 0) (.inl ⟨rfl, by decide⟩) (d :: t)
              rw [h3]
              refine ⟨_, _, ?_, flush_emitted attr ⟨'#' :: d :: t, con, att⟩ (dropSemi r') _⟩
              rw [e] at h4 ⊢
              refine .decimal ?_ h1 h2 (endCode_denotes h4)
              rintro rfl
              simp only [List.nil_append] at e
              exact h2 d (by rw [← e]; rfl) ((dec_iff _).1 hd)
            · rw [if_neg hd]
              refine ⟨_, _, .noDigits ?_, flush_emitted attr ⟨'#' :: d :: t, con, att⟩ (d :: t) _⟩
              intro x hx
              simp only [List.head?_cons, Option.some.injEq] at hx
              subst hx
              have := ht d rfl
              rintro (h | h | h)
              · exact hd ((dec_iff _).2 h)
              · exact this (.inr h)
              · exact this (.inl h)
        simp only [numeric]
        cases r with
        | nil => exact dec [] (by simp)
        | cons x t =>
          simp only
          by_cases hx : x = 'X' ∨ x = 'x'
          · rw [if_pos hx]
            cases t with
            | nil =>
              exact ⟨_, _, .noHexDigits hx.symm (by simp [NotNext]),
                flush_emitted attr ⟨'#' :: x :: [], con, att⟩ [] _⟩
            | cons d t =>
              simp only [hexStart]
              by_cases hd : (isDec d || isHexUpper d || isHexLower d) = true
              · rw [if_pos hd]
                obtain ⟨ds, r', e, h1, h2, h3, h4⟩ := hexLoop_spec
                  (code := some 0) (n := 0) (.inl ⟨rfl, by decide⟩) (d :: t)
                rw [h3]
                refine ⟨_, _, ?_, flush_emitted attr ⟨'#' :: x :: d :: t, con, att⟩ (dropSemi r') _⟩
                rw [e] at h4 ⊢
                refine .hexadecimal hx.symm ?_ h1 h2 (endCode_denotes h4)
                rintro rfl
                simp only [List.nil_append] at e
                exact h2 d (by rw [← e]; rfl) ((hex_iff _).1 hd)
              · rw [if_neg hd]
                refine ⟨_, _, .noHexDigits hx.symm ?_, flush_emitted attr ⟨'#' :: x :: d :: t, con, att⟩ (d :: t) _⟩
                intro y hy
                simp only [List.head?_cons, Option.some.injEq] at hy
                subst hy
                exact fun h => hd ((hex_iff _).2 h)
          · rw [if_neg hx]
            refine dec (x :: t) ?_
            intro d hd; simp only [List.head?_cons, Option.some.injEq] at hd; subst hd; exact hx
      · rw [if_neg hh]
        refine ⟨_, _, .literal ?_, flush_emitted attr ⟨c :: r, con, att⟩ (c :: r) _⟩
        intro d hd
        simp only [List.head?_cons, Option.some.injEq] at hd; subst hd
        rintro (h | h)
        · exact ha ((alnum_iff _).2 h)
        · exact hh h

end Verif.CharRef
