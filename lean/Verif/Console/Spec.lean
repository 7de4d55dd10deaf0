import Verif.Console.Model
import Mathlib.Data.List.DropRight

/-! # Specification: what a console shows -/

namespace Verif.Console

/-- A history of calls. -/
def run (c : Con) : List Call → Option Con
  | [] => some c
  | x :: xs => (c.step x).bind (fun c => run c xs)

/-- The number of calls of `count` with a label since the last reset of it. -/
def Since (l : Str) (h : List Call) (n : Nat) : Prop :=
  (∃ b a, h = b ++ .countReset l :: a ∧ .countReset l ∉ a ∧ n = a.countP (· = .count l)) ∨
  (.countReset l ∉ h ∧ n = h.countP (· = .count l))

/-- How many groups are open: ends without a group do not count. -/
def depth : List Call → Nat → Nat
  | [], n => n
  | .group _ _ _ :: h, n => depth h (n + 1)
  | .groupEnd :: h, n => depth h (n - 1)
  | _ :: h, n => depth h n

/-- Calls that end exactly the groups they start. -/
inductive Balanced : List Call → Prop where
  | nil : Balanced []
  | other {x h} : (∀ a b c, x ≠ .group a b c) → x ≠ .groupEnd → Balanced h → Balanced (x :: h)
  | group {a b c h g} : Balanced h → Balanced g → Balanced (.group a b c :: h ++ .groupEnd :: g)

/-- White space: the code points with the property White_Space of Unicode. -/
def White (n : Nat) : Prop :=
  (9 ≤ n ∧ n ≤ 13) ∨ n = 32 ∨ n = 0x85 ∨ n = 0xA0 ∨ n = 0x1680 ∨ (0x2000 ≤ n ∧ n ≤ 0x200A) ∨
  n = 0x2028 ∨ n = 0x2029 ∨ n = 0x202F ∨ n = 0x205F ∨ n = 0x3000

instance (n : Nat) : Decidable (White n) := by unfold White; infer_instance

/-- A text without white space at the end. -/
def stripped (s : Str) : Str := s.rdropWhile (fun c => decide (White c.toNat))

/-- Data as a message: separated by single spaces, without white space at the end. -/
def joined (data : List Str) : Str := stripped (List.intercalate [' '] data)

/-- The mark in front of a line in `n` groups. -/
def indent (n : Nat) : Str := (List.replicate n " > ".toList).flatten

/-- When a timer was started: the first call of `time` with the label. -/
def Started (l : Str) (h : List Call) (t : Nat) : Prop :=
  ∃ b a, h = b ++ .time l t :: a ∧ ∀ t', .time l t' ∉ b

/-- Messages have one of the levels of the methods that `message` stands for. -/
def Plain : Call → Prop
  | .message lv _ => lv = .debug ∨ lv = .error ∨ lv = .info ∨ lv = .log ∨ lv = .warn
  | _ => True

end Verif.Console
