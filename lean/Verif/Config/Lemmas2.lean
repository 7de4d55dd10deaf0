import Verif.Config.Lemmas

namespace Verif.Config
open Verif Verif.Map

/-! ## Numbers as text -/

theorem parseI64_intStr (n : Int) (h1 : -(2 ^ 63) ≤ n) (h2 : n < 2 ^ 63) : parseI64 (intStr n) = some n := by
  unfold intStr
  split
  · rw [parseI64_neg _ (by omega)]; congr 1; omega
  · rw [parseI64_pos _ (by omega)]; congr 1; omega

theorem parseUsize_natStr (n : Nat) (h : n < 2 ^ 64) : parseUsize (natStr n) = some n := by
  unfold parseUsize natStr
  have hp := parseDigits_toDigits n
  have hm : plusDigits (Nat.toDigits 10 n) = some n := by
    unfold plusDigits
    split
    · next r heq =>
      have : '+' ∈ Nat.toDigits 10 n := by rw [heq]; simp
      have := toDigits_digit this
      exact absurd this (by decide)
    · exact hp
  rw [hm]; simp [h]

theorem join_comma (v : Str) (l : List Str) : join [','] (v :: l) = v ++ (l.map (fun x => ',' :: x)).flatten := by
  induction l generalizing v with
  | nil => simp [join]
  | cons x r ih => simp [join, ih]

theorem splitOn_join (l : List Str) (hne : l ≠ []) (h : ∀ x ∈ l, ',' ∉ x) : splitOn ',' (join [','] l) = l := by
  cases l with
  | nil => exact absurd rfl hne
  | cons v r => rw [join_comma, splitOn_sepList ',' v r (h v (by simp)) (fun x hx => h x (by simp [hx]))]

theorem join_eq_nil {l : List Str} (h : join [','] l = []) : l = [] ∨ l = [[]] := by
  cases l with
  | nil => exact Or.inl rfl
  | cons v r =>
    rw [join_comma] at h
    cases r with
    | nil => right; simpa using h
    | cons x t => simp at h

/-! ## Constraint text -/

theorem parseDigits_dash {s : Str} (h : '-' ∈ s) : parseDigits s = none := by
  cases s with
  | nil => simp at h
  | cons c r =>
    simp only [parseDigits]
    rw [if_neg]
    intro hall
    have := List.all_eq_true.1 hall '-' h
    exact absurd this (by decide)

theorem parseI64_dash {c : Char} {r : Str} (h : '-' ∈ r) : parseI64 (c :: r) = none := by
  unfold parseI64
  split
  · next r' heq => cases heq; rw [parseDigits_dash h]
  · next r' heq => cases heq; rw [parseDigits_dash h]
  · rw [parseDigits_dash (List.mem_cons_of_mem _ h)]

theorem parseI64_range {s : Str} {n : Int} (h : parseI64 s = some n) : -(2 ^ 63) ≤ n ∧ n < 2 ^ 63 := by
  unfold parseI64 at h
  split at h <;> split at h <;> try cases h
  all_goals (split at h <;> try cases h) ; omega

theorem intStr_shape (n : Int) : ∃ c a, intStr n = c :: a ∧ c.toNat < 128 ∧ '-' ∉ a := by
  have hd : ∀ m : Nat, '-' ∉ Nat.toDigits 10 m := by
    intro m hm; exact absurd (toDigits_digit hm) (by decide)
  unfold intStr
  split
  · exact ⟨'-', _, rfl, by decide, hd _⟩
  · cases h : Nat.toDigits 10 n.natAbs with
    | nil => exact absurd h Nat.toDigits_ne_nil
    | cons c a =>
      have hc : c ∈ Nat.toDigits 10 n.natAbs := by rw [h]; simp
      have := toDigits_digit hc
      refine ⟨c, a, rfl, by omega, ?_⟩
      intro hm
      exact hd n.natAbs (by rw [h]; simp [hm])

theorem parseRangeToken_pair (lo hi : Int) (h1 : -(2 ^ 63) ≤ lo ∧ lo < 2 ^ 63) (h2 : -(2 ^ 63) ≤ hi ∧ hi < 2 ^ 63) :
    parseRangeToken (intStr lo ++ '-' :: intStr hi) = some (some (lo, hi)) := by
  obtain ⟨c, a, hca, hc, ha⟩ := intStr_shape lo
  have hlo := parseI64_intStr lo h1.1 h1.2
  have hhi := parseI64_intStr hi h2.1 h2.2
  rw [hca] at hlo ⊢
  unfold parseRangeToken
  rw [List.cons_append, parseI64_dash (by simp)]
  simp only [if_pos hc, splitDash]
  rw [splitOnce_append '-' a _ ha]
  simp only [hlo, hhi]

theorem parseRangeToken_single (n : Int) (h1 : -(2 ^ 63) ≤ n ∧ n < 2 ^ 63) :
    parseRangeToken (intStr n) = some (some (n, n)) := by
  unfold parseRangeToken
  rw [parseI64_intStr n h1.1 h1.2]

theorem parseRangeToken_range {t : Str} {r : Int × Int} (h : parseRangeToken t = some (some r)) :
    (-(2 ^ 63) ≤ r.1 ∧ r.1 < 2 ^ 63) ∧ (-(2 ^ 63) ≤ r.2 ∧ r.2 < 2 ^ 63) := by
  unfold parseRangeToken at h
  split at h
  · next n hn => cases h; exact ⟨parseI64_range hn, parseI64_range hn⟩
  · split at h
    · cases h
    · split at h
      · split at h
        · cases h
        · split at h
          · next hlo hhi => cases h; exact ⟨parseI64_range hlo, parseI64_range hhi⟩
          · cases h
      · cases h

/-- the text of one range -/
def rangeText (r : Int × Int) : Str := if r.1 = r.2 then intStr r.1 else intStr r.1 ++ '-' :: intStr r.2

theorem rangeText_parse (r : Int × Int)
    (h : (-(2 ^ 63) ≤ r.1 ∧ r.1 < 2 ^ 63) ∧ (-(2 ^ 63) ≤ r.2 ∧ r.2 < 2 ^ 63)) :
    parseRangeToken (rangeText r) = some (some r) := by
  obtain ⟨a, b⟩ := r
  unfold rangeText
  split
  · next heq => simp only at heq; subst heq; exact parseRangeToken_single a h.1
  · exact parseRangeToken_pair a b h.1 h.2

theorem parseRanges_range {ts : List Str} {rs : List (Int × Int)} (h : parseRanges ts = some (some rs)) :
    rs.length = ts.length ∧
    ∀ r ∈ rs, (-(2 ^ 63) ≤ r.1 ∧ r.1 < 2 ^ 63) ∧ (-(2 ^ 63) ≤ r.2 ∧ r.2 < 2 ^ 63) := by
  induction ts generalizing rs with
  | nil => simp only [parseRanges] at h; cases h; simp
  | cons t ts ih =>
    simp only [parseRanges] at h
    split at h
    · cases h
    · cases h
    · next x hx =>
      split at h
      · cases h
      · cases h
      · next xs hxs =>
        cases h
        obtain ⟨h1, h2⟩ := ih hxs
        refine ⟨by simp [h1], ?_⟩
        intro r hr
        rcases List.mem_cons.1 hr with rfl | hr
        · exact parseRangeToken_range hx
        · exact h2 r hr

theorem parseRanges_text (rs : List (Int × Int))
    (h : ∀ r ∈ rs, (-(2 ^ 63) ≤ r.1 ∧ r.1 < 2 ^ 63) ∧ (-(2 ^ 63) ≤ r.2 ∧ r.2 < 2 ^ 63)) :
    parseRanges (rs.map rangeText) = some (some rs) := by
  induction rs with
  | nil => rfl
  | cons r rs ih =>
    simp only [List.map_cons, parseRanges, rangeText_parse r (h r (by simp)),
      ih (fun x hx => h x (by simp [hx]))]

/-- characters of a written number -/
theorem intStr_char {n : Int} {c : Char} (h : c ∈ intStr n) : c = '-' ∨ 48 ≤ c.toNat ∧ c.toNat ≤ 57 := by
  unfold intStr at h
  split at h
  · rcases List.mem_cons.1 h with h | h
    · exact Or.inl h
    · exact Or.inr (toDigits_digit h)
  · exact Or.inr (toDigits_digit h)

theorem rangeText_char {r : Int × Int} {c : Char} (h : c ∈ rangeText r) :
    c = '-' ∨ 48 ≤ c.toNat ∧ c.toNat ≤ 57 := by
  unfold rangeText at h
  split at h
  · exact intStr_char h
  · rcases List.mem_append.1 h with h | h
    · exact intStr_char h
    · rcases List.mem_cons.1 h with h | h
      · exact Or.inl h
      · exact intStr_char h

theorem rangeText_ne (r : Int × Int) : rangeText r ≠ [] := by
  obtain ⟨c, a, h, _⟩ := intStr_shape r.1
  unfold rangeText
  split <;> simp [h]

/-- a token: trimmed, not empty, no comma -/
def Tok (t : Str) : Prop := Trimmed t ∧ t ≠ [] ∧ ',' ∉ t

theorem rangeText_tok (r : Int × Int) : Tok (rangeText r) := by
  have hws : ∀ c ∈ rangeText r, isWs c = false := by
    intro c hc
    rcases rangeText_char hc with rfl | h
    · decide
    · exact isWs_digit h
  refine ⟨⟨?_, ?_⟩, rangeText_ne r, ?_⟩
  · intro c hc; exact hws c (List.mem_of_head? hc)
  · intro c hc; exact hws c (List.mem_of_getLast? hc)
  · intro hc
    rcases rangeText_char hc with h | h
    · exact absurd h (by decide)
    · exact absurd h (by decide)

theorem tokensOf_tok (t : Str) : ∀ x ∈ tokensOf t, Tok x := by
  intro x hx
  simp only [tokensOf, List.mem_filter, List.mem_map, decide_eq_true_eq] at hx
  obtain ⟨⟨y, hy, rfl⟩, hne⟩ := hx
  exact ⟨trimmed_trim y, hne, fun hc => splitOn_noSep ',' t y hy (mem_of_mem_trim hc)⟩

theorem tokensOf_join (l : List Str) (h : ∀ x ∈ l, Tok x) : tokensOf (join [','] l) = l := by
  cases l with
  | nil => decide
  | cons v r =>
    unfold tokensOf
    rw [splitOn_join _ (by simp) (fun x hx => (h x hx).2.2)]
    have hm : (v :: r).map trim = v :: r := by
      exact (List.map_congr_left (fun x hx => trim_of_trimmed (h x hx).1)).trans (List.map_id _)
    rw [hm]
    apply List.filter_eq_self.2
    intro x hx
    simpa using (h x hx).2.1

theorem parseRanges_some {ts : List Str} (h : ∀ t ∈ ts, ∃ c r, t = c :: r ∧ c.toNat < 128) :
    parseRanges ts ≠ none := by
  induction ts with
  | nil => simp [parseRanges]
  | cons t ts ih =>
    obtain ⟨c, r, rfl, hc⟩ := h t (by simp)
    have ih := ih (fun x hx => h x (by simp [hx]))
    have hn : parseRangeToken (c :: r) ≠ none := by
      unfold parseRangeToken
      split
      · simp
      · simp only [if_pos hc]
        split
        · simp
        · split <;> simp
    simp only [parseRanges]
    split
    · next h => exact absurd h hn
    · simp
    · split
      · next h => exact absurd h ih
      · simp
      · simp

end Verif.Config
