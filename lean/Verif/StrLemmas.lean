import Verif.Util
import Mathlib.Tactic.Common
set_option linter.unusedVariables false
/-! Lemmas about the string functions of `Verif.Util`. -/
namespace Verif

theorem dropWhile_eq_self {α : Type} {p : α → Bool} {l : List α}
    (h : ∀ c, l.head? = some c → p c = false) : l.dropWhile p = l := by
  cases l with
  | nil => rfl
  | cons x r => simp [h x rfl]

theorem head_dropWhile {α : Type} {p : α → Bool} {l : List α} {c : α}
    (h : (l.dropWhile p).head? = some c) : p c = false := by
  induction l with
  | nil => simp at h
  | cons x r ih =>
    rw [List.dropWhile_cons] at h
    split at h
    · exact ih h
    · rename_i hx
      simp at h; subst h; simpa using hx

theorem trimBy_eq_self {p : Char → Bool} {s : Str} (h1 : ∀ c, s.head? = some c → p c = false)
    (h2 : ∀ c, s.getLast? = some c → p c = false) : trimBy p s = s := by
  unfold trimBy
  rw [dropWhile_eq_self h1, dropWhile_eq_self (l := s.reverse) (by simpa using h2), List.reverse_reverse]

theorem trim_of_trimmed {s : Str} (h : Trimmed s) : trim s = s := trimBy_eq_self h.1 h.2

theorem dropWhile_prefix_head {p : Char → Bool} (d : Str) (c : Char)
    (h : ((d.reverse.dropWhile p).reverse).head? = some c) : d.head? = some c := by
  have hs : (d.reverse.dropWhile p) <:+ d.reverse := List.dropWhile_suffix p
  obtain ⟨t, ht⟩ := hs
  have : d = (d.reverse.dropWhile p).reverse ++ t.reverse := by
    rw [← List.reverse_append, ht, List.reverse_reverse]
  rw [this, List.head?_append, h]; rfl

theorem trimmed_trim (s : Str) : Trimmed (trim s) := by
  unfold trim trimBy
  constructor
  · intro c hc
    exact head_dropWhile (dropWhile_prefix_head _ c hc)
  · intro c hc
    rw [List.getLast?_reverse] at hc
    exact head_dropWhile hc

theorem trim_ws_cons {w : Char} (hw : isWs w = true) (s : Str) : trim (w :: s) = trim s := by
  unfold trim trimBy; rw [List.dropWhile_cons, if_pos hw]

theorem splitOnce_append (c : Char) (a b : Str) (ha : c ∉ a) : splitOnce c (a ++ c :: b) = some (a, b) := by
  induction a with
  | nil => simp [splitOnce]
  | cons x xs ih =>
    simp only [List.mem_cons, not_or] at ha
    simp only [List.cons_append, splitOnce]
    rw [if_neg (fun e => ha.1 e.symm), ih ha.2]

theorem splitOnce_none {c : Char} {s : Str} : splitOnce c s = none ↔ c ∉ s := by
  induction s with
  | nil => simp [splitOnce]
  | cons x xs ih =>
    simp only [splitOnce, List.mem_cons, not_or]
    split
    · rename_i h; simp [h]
    · rename_i h
      have hx : ¬ c = x := fun e => h e.symm
      split
      · rename_i heq; rw [heq] at ih; simp at ih; simp [ih]
      · rename_i heq; simp [hx, ih.mp heq]

theorem splitOn_sepList (c : Char) (v : Str) (l : List Str) (hv : c ∉ v) (hl : ∀ x ∈ l, c ∉ x) :
    splitOn c (v ++ (l.map (fun x => c :: x)).flatten) = v :: l := by
  induction l generalizing v with
  | nil => simpa using splitOn_single c v hv
  | cons x l ih =>
    simp only [List.map_cons, List.flatten_cons, List.cons_append]
    rw [splitOn_append c v _ hv, ih x (hl x (by simp)) (fun y hy => hl y (by simp [hy]))]

theorem parseDigits_toDigits (n : Nat) : parseDigits (Nat.toDigits 10 n) = some n := by
  have hd : ∀ c ∈ Nat.toDigits 10 n, c.isDigit = true :=
    fun c hc => Nat.isDigit_of_mem_toDigits (by decide) (by decide) hc
  have hv := @Nat.ofDigitChars_ten_toDigits n
  rw [Nat.ofDigitChars_eq_foldl] at hv
  have hne : Nat.toDigits 10 n ≠ [] := Nat.toDigits_ne_nil
  generalize Nat.toDigits 10 n = l at *
  cases l with
  | nil => exact absurd rfl hne
  | cons x r =>
    simp only [parseDigits]
    have hall : (x :: r).all (fun c => 48 ≤ c.toNat && c.toNat ≤ 57) = true := by
      rw [List.all_eq_true]
      intro c hc
      have := hd c hc
      rw [Char.isDigit, Bool.and_eq_true, decide_eq_true_eq, decide_eq_true_eq] at this
      have h1 : 48 ≤ c.toNat := this.1
      have h2 : c.toNat ≤ 57 := this.2
      simp [h1, h2]
    rw [if_pos hall]
    congr 1
    have e : (fun (n : Nat) (c : Char) => n * 10 + (c.toNat - 48)) =
        (fun (sum : Nat) (c : Char) => 10 * sum + (c.toNat - '0'.toNat)) := by
      funext a c; rw [Nat.mul_comm]; rfl
    rw [e]; exact hv

theorem toDigits_digit {n : Nat} {c : Char} (h : c ∈ Nat.toDigits 10 n) : 48 ≤ c.toNat ∧ c.toNat ≤ 57 := by
  have := Nat.isDigit_of_mem_toDigits (by decide) (by decide) h
  rw [Char.isDigit, Bool.and_eq_true, decide_eq_true_eq, decide_eq_true_eq] at this
  exact ⟨this.1, this.2⟩

theorem isWs_digit {c : Char} (h : 48 ≤ c.toNat ∧ c.toNat ≤ 57) : isWs c = false := by
  simp only [isWs]; simp; omega

theorem trimmed_toDigits (n : Nat) : Trimmed (Nat.toDigits 10 n) := by
  constructor
  · intro c hc; exact isWs_digit (toDigits_digit (List.mem_of_mem_head? hc))
  · intro c hc; exact isWs_digit (toDigits_digit (List.mem_of_mem_getLast? hc))

theorem parseI64_pos (n : Nat) (h : n < 2 ^ 63) : parseI64 (Nat.toDigits 10 n) = some (n : Int) := by
  have hp := parseDigits_toDigits n
  have hd : ∀ c ∈ Nat.toDigits 10 n, 48 ≤ c.toNat ∧ c.toNat ≤ 57 := fun c hc => toDigits_digit hc
  have hne : Nat.toDigits 10 n ≠ [] := Nat.toDigits_ne_nil
  generalize Nat.toDigits 10 n = l at *
  unfold parseI64
  split
  · exact absurd (hd '-' (by simp)) (by decide)
  · exact absurd (hd '+' (by simp)) (by decide)
  · rw [hp]; simp; omega

theorem parseI64_neg (n : Nat) (h : n ≤ 2 ^ 63) :
    parseI64 ('-' :: Nat.toDigits 10 n) = some (-(n : Int)) := by
  simp only [parseI64, parseDigits_toDigits]
  rw [if_pos (by omega)]

theorem lower_eqIgnore (a b : Str) : eqIgnoreCase a b = true ↔ lower a = lower b := by
  simp [eqIgnoreCase]

end Verif
