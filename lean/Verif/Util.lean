/-!
# Shared vocabulary

Strings are lists of characters.  These are transcriptions of the `str` methods of Rust's standard
library used by several modelled files, and a stable insertion sort standing for `slice::sort_by`.
-/
namespace Verif

abbrev Str := List Char

/-- `str::split_once(c)` -/
def splitOnce (c : Char) : Str → Option (Str × Str)
  | [] => none
  | x :: xs =>
    if x = c then some ([], xs)
    else match splitOnce c xs with
      | some (a, b) => some (x :: a, b)
      | none => none

/-- `str::split(c)`: always at least one piece -/
def splitOn (c : Char) : Str → List Str
  | [] => [[]]
  | x :: xs =>
    if x = c then [] :: splitOn c xs
    else match splitOn c xs with
      | [] => [[x]]
      | p :: ps => (x :: p) :: ps

/-- `char::is_whitespace` (Unicode `White_Space`) -/
def isWs (c : Char) : Bool :=
  let n := c.toNat
  (9 ≤ n && n ≤ 13) || n == 32 || n == 0x85 || n == 0xA0 || n == 0x1680 ||
  (0x2000 ≤ n && n ≤ 0x200A) || n == 0x2028 || n == 0x2029 || n == 0x202F || n == 0x205F || n == 0x3000

/-- `str::trim_start_matches(p)` -/
def trimStart (p : Char → Bool) (s : Str) : Str := s.dropWhile p

/-- `str::trim_matches(p)` -/
def trimBy (p : Char → Bool) (s : Str) : Str := ((s.dropWhile p).reverse.dropWhile p).reverse

/-- `str::trim` -/
def trim (s : Str) : Str := trimBy isWs s

/-- no white space at either end -/
def Trimmed (s : Str) : Prop :=
  (∀ c, s.head? = some c → isWs c = false) ∧ (∀ c, s.getLast? = some c → isWs c = false)

/-- `char::to_ascii_lowercase` -/
def lowerChar (c : Char) : Char :=
  if 65 ≤ c.toNat ∧ c.toNat ≤ 90 then Char.ofNat (c.toNat + 32) else c

/-- `str::to_ascii_lowercase` -/
def lower (s : Str) : Str := s.map lowerChar

/-- `str::eq_ignore_ascii_case` -/
def eqIgnoreCase (a b : Str) : Bool := decide (lower a = lower b)

/-- `slice::join(sep)` on strings -/
def join (sep : Str) : List Str → Str
  | [] => []
  | [x] => x
  | x :: y :: r => x ++ sep ++ join sep (y :: r)

/-- value of a string of decimal digits, `none` if empty or if there is another character -/
def parseDigits : Str → Option Nat
  | [] => none
  | cs => if cs.all (fun c => 48 ≤ c.toNat && c.toNat ≤ 57) then
      some (cs.foldl (fun n c => n * 10 + (c.toNat - 48)) 0) else none

/-- `str::parse::<i64>` -/
def parseI64 (s : Str) : Option Int :=
  match s with
  | '-' :: r => match parseDigits r with
    | some n => if n ≤ 9223372036854775808 then some (-(n : Int)) else none
    | none => none
  | '+' :: r => match parseDigits r with
    | some n => if n ≤ 9223372036854775807 then some (n : Int) else none
    | none => none
  | r => match parseDigits r with
    | some n => if n ≤ 9223372036854775807 then some (n : Int) else none
    | none => none

/-- `i64` wrapping addition -/
def wrapI64 (x : Int) : Int := (x + 9223372036854775808) % 18446744073709551616 - 9223372036854775808

section Sorting
variable {α : Type}

/-- insert `a` before the first element that is strictly greater or equal in `le`-order -/
def insertSorted (le : α → α → Bool) (a : α) : List α → List α
  | [] => [a]
  | b :: l => if le a b then a :: b :: l else b :: insertSorted le a l

/-- Stable sort: `slice::sort_by` with the comparison `le`. -/
def isort (le : α → α → Bool) : List α → List α
  | [] => []
  | a :: l => insertSorted le a (isort le l)

theorem insertSorted_perm (le : α → α → Bool) (a : α) (l : List α) :
    (insertSorted le a l).Perm (a :: l) := by
  induction l with
  | nil => simp [insertSorted]
  | cons b l ih =>
    simp only [insertSorted]
    split
    · exact List.Perm.refl _
    · exact (List.Perm.cons b ih).trans (List.Perm.swap a b l)

theorem isort_perm (le : α → α → Bool) (l : List α) : (isort le l).Perm l := by
  induction l with
  | nil => simp [isort]
  | cons a l ih => exact (insertSorted_perm le a _).trans (List.Perm.cons a ih)

theorem insertSorted_sorted (le : α → α → Bool)
    (trans : ∀ a b c, le a b = true → le b c = true → le a c = true)
    (total : ∀ a b, le a b = true ∨ le b a = true) (a : α) (l : List α)
    (h : l.Pairwise (fun x y => le x y = true)) :
    (insertSorted le a l).Pairwise (fun x y => le x y = true) := by
  induction l with
  | nil => simp [insertSorted]
  | cons b l ih =>
    simp only [insertSorted]
    have h' := List.pairwise_cons.mp h
    split
    · rename_i hab
      refine List.Pairwise.cons (fun x hx => ?_) h
      rcases List.mem_cons.mp hx with rfl | hx
      · exact hab
      · exact trans _ _ _ hab (h'.1 x hx)
    · rename_i hab
      refine List.Pairwise.cons (fun x hx => ?_) (ih h'.2)
      have := (insertSorted_perm le a l).mem_iff.mp hx
      rcases List.mem_cons.mp this with rfl | hx
      · exact (total x b).resolve_left hab
      · exact h'.1 x hx

theorem isort_sorted (le : α → α → Bool)
    (trans : ∀ a b c, le a b = true → le b c = true → le a c = true)
    (total : ∀ a b, le a b = true ∨ le b a = true) (l : List α) :
    (isort le l).Pairwise (fun x y => le x y = true) := by
  induction l with
  | nil => simp [isort]
  | cons a l ih => exact insertSorted_sorted le trans total a _ ih

/-- A stable sort leaves an already sorted list unchanged. -/
theorem isort_of_sorted (le : α → α → Bool) (l : List α)
    (h : l.Pairwise (fun x y => le x y = true)) : isort le l = l := by
  induction l with
  | nil => rfl
  | cons a l ih =>
    have h' := List.pairwise_cons.mp h
    simp only [isort, ih h'.2]
    cases l with
    | nil => rfl
    | cons b l => simp [insertSorted, h'.1 b (by simp)]

end Sorting

/-! ## Facts about splitting and trimming -/

theorem splitOnce_spec {c : Char} {s a b : Str} (h : splitOnce c s = some (a, b)) :
    s = a ++ c :: b ∧ c ∉ a := by
  induction s generalizing a b with
  | nil => simp [splitOnce] at h
  | cons x xs ih =>
    simp only [splitOnce] at h
    split at h
    · rename_i hx; simp at h; obtain ⟨rfl, rfl⟩ := h; simp [hx]
    · rename_i hx
      split at h
      · rename_i a' b' heq
        simp at h; obtain ⟨rfl, rfl⟩ := h
        obtain ⟨h1, h2⟩ := ih heq
        refine ⟨by rw [h1]; rfl, ?_⟩
        simp only [List.mem_cons, not_or]
        exact ⟨fun e => hx e.symm, h2⟩
      · simp at h

theorem splitOn_noSep (c : Char) (s : Str) : ∀ p ∈ splitOn c s, c ∉ p := by
  induction s with
  | nil => simp [splitOn]
  | cons x xs ih =>
    simp only [splitOn]
    split
    · intro p hp
      rcases List.mem_cons.mp hp with rfl | hp
      · simp
      · exact ih p hp
    · rename_i hx
      split
      · intro p hp; simp at hp; subst hp; simp; exact fun e => hx e.symm
      · rename_i p0 ps heq
        rw [heq] at ih
        intro p hp
        rcases List.mem_cons.mp hp with rfl | hp
        · simp only [List.mem_cons, not_or]
          exact ⟨fun e => hx e.symm, ih p0 (by simp)⟩
        · exact ih p (by simp [hp])

theorem splitOn_ne_nil (c : Char) (s : Str) : splitOn c s ≠ [] := by
  cases s with
  | nil => simp [splitOn]
  | cons x xs =>
    simp only [splitOn]
    split
    · simp
    · split <;> simp

theorem splitOn_append (c : Char) (a b : Str) (ha : c ∉ a) :
    splitOn c (a ++ c :: b) = a :: splitOn c b := by
  induction a with
  | nil => simp [splitOn]
  | cons x xs ih =>
    simp only [List.mem_cons, not_or] at ha
    simp only [List.cons_append, splitOn]
    rw [if_neg (fun e => ha.1 e.symm), ih ha.2]

theorem splitOn_single (c : Char) (a : Str) (ha : c ∉ a) : splitOn c a = [a] := by
  induction a with
  | nil => simp [splitOn]
  | cons x xs ih =>
    simp only [List.mem_cons, not_or] at ha
    simp only [splitOn]
    rw [if_neg (fun e => ha.1 e.symm), ih ha.2]

theorem mem_dropWhile {α : Type} {p : α → Bool} {l : List α} {x : α} (h : x ∈ l.dropWhile p) :
    x ∈ l := (List.dropWhile_sublist p).subset h

theorem mem_of_mem_trimBy {p : Char → Bool} {s : Str} {x : Char} (h : x ∈ trimBy p s) : x ∈ s := by
  unfold trimBy at h
  rw [List.mem_reverse] at h
  exact mem_dropWhile (List.mem_reverse.mp (mem_dropWhile h))

theorem mem_of_mem_trim {s : Str} {x : Char} (h : x ∈ trim s) : x ∈ s := mem_of_mem_trimBy h

end Verif
