import Verif.Color.Spec
import Mathlib.Data.List.Forall2

/-!
# C49
-/
set_option linter.unusedVariables false
namespace Verif.Color
open Verif

theorem digit_of {c : Char} {n : Nat} (h : IsDigit c n) : digit c = some n := by
  have l : ∀ n < 16, ∀ c, lowerDigits[n]? = some c → digit c = some n := by
    intro n hn c h
    have : ∀ k : Fin 16, (lowerDigits[k.val]?).bind digit = some k.val := by decide
    have := this ⟨n, hn⟩
    simpa [h] using this
  have u : ∀ n < 16, ∀ c, upperDigits[n]? = some c → digit c = some n := by
    intro n hn c h
    have : ∀ k : Fin 16, (upperDigits[k.val]?).bind digit = some k.val := by decide
    have := this ⟨n, hn⟩
    simpa [h] using this
  rcases h with h | h
  · have : n < lowerDigits.length := (List.getElem?_eq_some_iff.1 h).1
    exact l n this c h
  · have : n < upperDigits.length := (List.getElem?_eq_some_iff.1 h).1
    exact u n this c h

theorem of_digit {c : Char} {n : Nat} (h : digit c = some n) : IsDigit c n := by
  have back : ∀ k, c.toNat = k → c = Char.ofNat k := by
    intro k hk; rw [← hk]; exact (Char.ofNat_toNat c).symm
  unfold digit at h
  split at h
  · rename_i hr
    simp at h
    have : ∀ k : Fin 10, lowerDigits[k.val]? = some (Char.ofNat (k.val + 48)) := by decide
    have t := this ⟨n, by omega⟩
    refine Or.inl ?_
    rw [back (n + 48) (by omega)]; exact t
  · split at h
    · simp at h
      have : ∀ k : Fin 6, lowerDigits[k.val + 10]? = some (Char.ofNat (k.val + 97)) := by decide
      have t := this ⟨n - 10, by omega⟩
      refine Or.inl ?_
      rw [back (n - 10 + 97) (by omega)]
      simp only [show n - 10 + 10 = n by omega] at t
      exact t
    · split at h
      · simp at h
        have : ∀ k : Fin 6, upperDigits[k.val + 10]? = some (Char.ofNat (k.val + 65)) := by decide
        have t := this ⟨n - 10, by omega⟩
        refine Or.inr ?_
        rw [back (n - 10 + 65) (by omega)]
        simp only [show n - 10 + 10 = n by omega] at t
        exact t
      · cases h

theorem isHex_of {s : Str} {l : List Nat} (h : Digits s l) : isHex ('#' :: s) = true := by
  show (s.all fun c => (digit c).isSome) = true
  rw [List.all_eq_true]
  intro c hc
  induction h with
  | nil => simp at hc
  | cons h _ ih =>
    rcases List.mem_cons.1 hc with rfl | hc
    · rw [digit_of h]; rfl
    · exact ih hc

/-- the empty string, the other colour syntaxes and `currentcolor` do not start with `#` -/
theorem ofStr_hash (others : Str → Rgb) (s : Str) : ofStr others ('#' :: s) = parseHex ('#' :: s) := by
  have : ¬ ('#' :: s) = "currentcolor".toList := by
    intro h
    have h2 : "currentcolor".toList = 'c' :: "urrentcolor".toList := by decide
    rw [h2] at h
    exact absurd (List.cons.inj h).1 (by decide)
  simp only [ofStr, List.isEmpty_cons, Bool.false_eq_true, if_false, if_neg this]
  rw [if_pos (by simp [List.isPrefixOf])]

/-- C49: six digits give the channels, opaque. -/
theorem C49_six (others : Str → Rgb) (s : Str) (a b c d e f : Nat) (h : Digits s [a, b, c, d, e, f]) :
    ofStr others ('#' :: s) = ⟨16 * a + b, 16 * c + d, 16 * e + f, 255⟩ := by
  have hx := isHex_of h
  rcases h with _ | ⟨h1, _ | ⟨h2, _ | ⟨h3, _ | ⟨h4, _ | ⟨h5, _ | ⟨h6, _ | _⟩⟩⟩⟩⟩⟩
  rw [ofStr_hash]
  simp [parseHex, hx, ints, at', fromRadix, digit_of h1, digit_of h2, digit_of h3, digit_of h4, digit_of h5, digit_of h6,
    Nat.mul_comm]

/-- C49: eight digits give the channels and the alpha. -/
theorem C49_eight (others : Str → Rgb) (s : Str) (a b c d e f g i : Nat) (h : Digits s [a, b, c, d, e, f, g, i]) :
    ofStr others ('#' :: s) = ⟨16 * a + b, 16 * c + d, 16 * e + f, 16 * g + i⟩ := by
  have hx := isHex_of h
  rcases h with _ | ⟨h1, _ | ⟨h2, _ | ⟨h3, _ | ⟨h4, _ | ⟨h5, _ | ⟨h6, _ | ⟨h7, _ | ⟨h8, _ | _⟩⟩⟩⟩⟩⟩⟩⟩
  rw [ofStr_hash]
  simp [parseHex, hx, ints, at', fromRadix, digit_of h1, digit_of h2, digit_of h3, digit_of h4, digit_of h5, digit_of h6,
    digit_of h7, digit_of h8, Nat.mul_comm]

/-- C49: three digits stand for six with each repeated. -/
theorem C49_three (others : Str → Rgb) (s : Str) (a b c : Nat) (h : Digits s [a, b, c]) :
    ofStr others ('#' :: s) = ⟨16 * a + a, 16 * b + b, 16 * c + c, 255⟩ := by
  have hx := isHex_of h
  rcases h with _ | ⟨h1, _ | ⟨h2, _ | ⟨h3, _ | _⟩⟩⟩
  rw [ofStr_hash]
  simp [parseHex, hx, ints, at', fromRadix, digit_of h1, digit_of h2, digit_of h3, Nat.mul_comm]

/-- C49: four digits stand for eight with each repeated. -/
theorem C49_four (others : Str → Rgb) (s : Str) (a b c d : Nat) (h : Digits s [a, b, c, d]) :
    ofStr others ('#' :: s) = ⟨16 * a + a, 16 * b + b, 16 * c + c, 16 * d + d⟩ := by
  have hx := isHex_of h
  rcases h with _ | ⟨h1, _ | ⟨h2, _ | ⟨h3, _ | ⟨h4, _ | _⟩⟩⟩⟩
  rw [ofStr_hash]
  simp [parseHex, hx, ints, at', fromRadix, digit_of h1, digit_of h2, digit_of h3, digit_of h4, Nat.mul_comm]

/-- the hypotheses are met by `0aF` and by `09aFb0C8` -/
example : Digits "0aF".toList [0, 10, 15] ∧ Digits "09aFb0C8".toList [0, 9, 10, 15, 11, 0, 12, 8] := by
  constructor <;> (simp only [Digits]; repeat first | exact List.Forall₂.nil | refine List.Forall₂.cons (by unfold IsDigit; decide) ?_)

theorem isDigit_lt {c : Char} {n : Nat} (h : IsDigit c n) : n < 16 := by
  rcases h with h | h
  · exact (List.getElem?_eq_some_iff.1 h).1
  · exact (List.getElem?_eq_some_iff.1 h).1

/-- the channels are always below 256 -/
theorem C49_range (others : Str → Rgb) (s : Str) :
    (ofStr others ('#' :: s)).r < 256 ∧ (ofStr others ('#' :: s)).g < 256 ∧ (ofStr others ('#' :: s)).b < 256 ∧
    (ofStr others ('#' :: s)).a < 256 := by
  have dflt : ∀ x : Rgb, x = .default → x.r < 256 ∧ x.g < 256 ∧ x.b < 256 ∧ x.a < 256 := by
    rintro x rfl; decide
  by_cases hx : isHex ('#' :: s) = true
  · have hd : ∀ s' : Str, s'.all (fun c => (digit c).isSome) = true → ∃ l, Digits s' l := by
      intro s'
      induction s' with
      | nil => intro _; exact ⟨[], .nil⟩
      | cons c r ih =>
        intro h
        simp at h
        obtain ⟨n, hn⟩ := Option.isSome_iff_exists.1 h.1
        obtain ⟨l, hl⟩ := ih (by simpa using h.2)
        exact ⟨n :: l, .cons (of_digit hn) hl⟩
    obtain ⟨l, hl⟩ := hd s hx
    have hlen := hl.length_eq
    by_cases h3 : s.length = 3
    · match l, hlen, hl with
      | [a, b, c], _, hl =>
        rw [C49_three others s a b c hl]
        rcases hl with _ | ⟨k1, _ | ⟨k2, _ | ⟨k3, _ | _⟩⟩⟩
        have := isDigit_lt k1; have := isDigit_lt k2; have := isDigit_lt k3
        simp only []; omega
      | [], h, _ => rw [h3] at h; simp at h
      | [_], h, _ => rw [h3] at h; simp at h
      | [_, _], h, _ => rw [h3] at h; simp at h
      | _ :: _ :: _ :: _ :: _, h, _ => rw [h3] at h; simp at h
    by_cases h4 : s.length = 4
    · match l, hlen, hl with
      | [a, b, c, d], _, hl =>
        rw [C49_four others s a b c d hl]
        rcases hl with _ | ⟨k1, _ | ⟨k2, _ | ⟨k3, _ | ⟨k4, _ | _⟩⟩⟩⟩
        have := isDigit_lt k1; have := isDigit_lt k2; have := isDigit_lt k3; have := isDigit_lt k4
        simp only []; omega
      | [], h, _ => rw [h4] at h; simp at h
      | [_], h, _ => rw [h4] at h; simp at h
      | [_, _], h, _ => rw [h4] at h; simp at h
      | [_, _, _], h, _ => rw [h4] at h; simp at h
      | _ :: _ :: _ :: _ :: _ :: _, h, _ => rw [h4] at h; simp at h
    by_cases h6 : s.length = 6
    · match l, hlen, hl with
      | [a, b, c, d, e, f], _, hl =>
        rw [C49_six others s a b c d e f hl]
        rcases hl with _ | ⟨k1, _ | ⟨k2, _ | ⟨k3, _ | ⟨k4, _ | ⟨k5, _ | ⟨k6, _ | _⟩⟩⟩⟩⟩⟩
        have := isDigit_lt k1; have := isDigit_lt k2; have := isDigit_lt k3
        have := isDigit_lt k4; have := isDigit_lt k5; have := isDigit_lt k6
        simp only []; omega
      | [], h, _ => rw [h6] at h; simp at h
      | [_], h, _ => rw [h6] at h; simp at h
      | [_, _], h, _ => rw [h6] at h; simp at h
      | [_, _, _], h, _ => rw [h6] at h; simp at h
      | [_, _, _, _], h, _ => rw [h6] at h; simp at h
      | [_, _, _, _, _], h, _ => rw [h6] at h; simp at h
      | _ :: _ :: _ :: _ :: _ :: _ :: _ :: _, h, _ => rw [h6] at h; simp at h
    by_cases h8 : s.length = 8
    · match l, hlen, hl with
      | [a, b, c, d, e, f, g, i], _, hl =>
        rw [C49_eight others s a b c d e f g i hl]
        rcases hl with _ | ⟨k1, _ | ⟨k2, _ | ⟨k3, _ | ⟨k4, _ | ⟨k5, _ | ⟨k6, _ | ⟨k7, _ | ⟨k8, _ | _⟩⟩⟩⟩⟩⟩⟩⟩
        have := isDigit_lt k1; have := isDigit_lt k2; have := isDigit_lt k3; have := isDigit_lt k7
        have := isDigit_lt k4; have := isDigit_lt k5; have := isDigit_lt k6; have := isDigit_lt k8
        simp only []; omega
      | [], h, _ => rw [h8] at h; simp at h
      | [_], h, _ => rw [h8] at h; simp at h
      | [_, _], h, _ => rw [h8] at h; simp at h
      | [_, _, _], h, _ => rw [h8] at h; simp at h
      | [_, _, _, _], h, _ => rw [h8] at h; simp at h
      | [_, _, _, _, _], h, _ => rw [h8] at h; simp at h
      | [_, _, _, _, _, _], h, _ => rw [h8] at h; simp at h
      | [_, _, _, _, _, _, _], h, _ => rw [h8] at h; simp at h
      | _ :: _ :: _ :: _ :: _ :: _ :: _ :: _ :: _ :: _, h, _ => rw [h8] at h; simp at h
    refine dflt _ ?_
    rw [ofStr_hash]
    simp [parseHex, hx, h3, h4, h6, h8]
  · refine dflt _ ?_
    rw [ofStr_hash]
    simp [parseHex, hx]

/-- text after `#` that is not 3, 4, 6 or 8 hexadecimal digits gives opaque black -/
theorem C49_else (others : Str → Rgb) (s : Str)
    (h : (∃ c ∈ s, ∀ n, ¬ IsDigit c n) ∨ s.length ∉ [3, 4, 6, 8]) : ofStr others ('#' :: s) = ⟨0, 0, 0, 255⟩ := by
  rw [ofStr_hash]
  rcases h with ⟨c, hc, hn⟩ | h
  · have : isHex ('#' :: s) = false := by
      rw [← Bool.not_eq_true]
      intro hx
      have := List.all_eq_true.1 hx c hc
      obtain ⟨n, h'⟩ := Option.isSome_iff_exists.1 this
      exact hn n (of_digit h')
    simp [parseHex, this, Rgb.default]
  · simp at h
    unfold parseHex
    split
    · rfl
    · simp [h, Rgb.default]

example : (∃ c ∈ "12g".toList, ∀ n, ¬ IsDigit c n) ∧ "12345".toList.length ∉ [3, 4, 6, 8] := by
  refine ⟨⟨'g', by decide, ?_⟩, by decide⟩
  intro n h
  have := digit_of h
  simp [digit] at this

theorem digit_lower (c : Char) : digit (lowerChar c) = digit c := by
  unfold lowerChar
  split
  · rename_i h
    have : ∀ k : Fin 26, digit (Char.ofNat (k.val + 65 + 32)) = digit (Char.ofNat (k.val + 65)) := by decide
    have t := this ⟨c.toNat - 65, by omega⟩
    simp only [show c.toNat - 65 + 65 = c.toNat by omega] at t
    rw [t, Char.ofNat_toNat]
  · rfl

theorem fromRadix_lower (s : Str) : fromRadix (lower s) = fromRadix s := by
  unfold fromRadix lower
  rw [List.foldl_map]
  simp only [digit_lower]

/-- C49: letter case does not matter, for any text after `#`. -/
theorem C49_case (others : Str → Rgb) (s : Str) : ofStr others ('#' :: lower s) = ofStr others ('#' :: s) := by
  rw [ofStr_hash, ofStr_hash]
  have e : '#' :: lower s = lower ('#' :: s) := rfl
  have h1 : isHex ('#' :: lower s) = isHex ('#' :: s) := by
    simp only [isHex, lower, List.all_map]
    congr 1
    funext c
    simp [digit_lower]
  have h2 : ∀ k, ints ('#' :: lower s) k = ints ('#' :: s) k := by
    intro k
    have hl : ('#' :: lower s).length = ('#' :: s).length := by simp [lower]
    have hd : ∀ i j, (('#' :: lower s).drop i).take j = lower ((('#' :: s).drop i).take j) := by
      intro i j; rw [e]; simp [lower]
    unfold ints
    split
    · have : ('#' :: lower s).drop 1 = lower (('#' :: s).drop 1) := rfl
      rw [this]
      unfold lower
      rw [List.map_map]
      congr 1
      funext c
      exact fromRadix_lower [c]
    · split
      · simp only [hl, hd]
        split <;> simp [fromRadix_lower]
      · rfl
  have h3 : ('#' :: lower s).length = ('#' :: s).length := by simp [lower]
  unfold parseHex
  simp only [h1, h2, h3]

theorem digitChar_is {table : List Char} (ht : table = lowerDigits ∨ table = upperDigits) {n : Nat} (h : n < 16) :
    IsDigit (digitChar table n) n := by
  rcases ht with rfl | rfl
  · left
    unfold digitChar
    have : n < lowerDigits.length := h
    rw [List.getElem?_eq_getElem this]; rfl
  · right
    unfold digitChar
    have : n < upperDigits.length := h
    rw [List.getElem?_eq_getElem this]; rfl

/-- C49: writing the channels with two digits each, in either case, and parsing gives them back. -/
theorem C49_roundtrip (others : Str → Rgb) (table : List Char) (ht : table = lowerDigits ∨ table = upperDigits)
    (r g b a : Nat) (hr : r < 256) (hg : g < 256) (hb : b < 256) (ha : a < 256) :
    ofStr others ('#' :: (twoDigits table r ++ twoDigits table g ++ twoDigits table b ++ twoDigits table a)) = ⟨r, g, b, a⟩ ∧
    ofStr others ('#' :: (twoDigits table r ++ twoDigits table g ++ twoDigits table b)) = ⟨r, g, b, 255⟩ := by
  have D : ∀ n < 256, IsDigit (digitChar table (n / 16)) (n / 16) ∧ IsDigit (digitChar table (n % 16)) (n % 16) :=
    fun n hn => ⟨digitChar_is ht (by omega), digitChar_is ht (by omega)⟩
  simp only [twoDigits, List.cons_append, List.nil_append]
  constructor
  · rw [C49_eight others _ (r / 16) (r % 16) (g / 16) (g % 16) (b / 16) (b % 16) (a / 16) (a % 16)
      (.cons (D r hr).1 <| .cons (D r hr).2 <| .cons (D g hg).1 <| .cons (D g hg).2 <| .cons (D b hb).1 <|
        .cons (D b hb).2 <| .cons (D a ha).1 <| .cons (D a ha).2 .nil)]
    simp only [Nat.div_add_mod]
  · rw [C49_six others _ (r / 16) (r % 16) (g / 16) (g % 16) (b / 16) (b % 16)
      (.cons (D r hr).1 <| .cons (D r hr).2 <| .cons (D g hg).1 <| .cons (D g hg).2 <| .cons (D b hb).1 <|
        .cons (D b hb).2 .nil)]
    simp only [Nat.div_add_mod]

example : '#' :: (twoDigits lowerDigits 255 ++ twoDigits lowerDigits 0 ++ twoDigits lowerDigits 171) = "#ff00ab".toList := by
  decide

end Verif.Color
