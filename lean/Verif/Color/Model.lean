import Verif.Util
import Mathlib.Tactic.Common

/-!
# Model of hexadecimal colours

File modelled: /repo/crates/gosub_css3/src/colors.rs, `RgbColor::from` (46-100, the branches that do not call the
`colors_transform` crate or compute with floats), `is_hex`, `parse_hex`, `convert_from_hex_str_to_vec_of_ints`
(207-322).  The channels are whole numbers below 256, which `f32` represents exactly; they are `Nat` here.
-/
namespace Verif.Color
open Verif

/-- `colors.rs:15-25` -/
structure Rgb where
  r : Nat
  g : Nat
  b : Nat
  a : Nat
  deriving DecidableEq, Repr

/-- `colors.rs:35-45` -/
def Rgb.default : Rgb := ⟨0, 0, 0, 255⟩

/-- `char::to_digit(16)` -/
def digit (c : Char) : Option Nat :=
  if 48 ≤ c.toNat ∧ c.toNat ≤ 57 then some (c.toNat - 48)
  else if 97 ≤ c.toNat ∧ c.toNat ≤ 102 then some (c.toNat - 87)
  else if 65 ≤ c.toNat ∧ c.toNat ≤ 70 then some (c.toNat - 55)
  else none

/-- `i32::from_str_radix(s, 16)` on text without a sign, then `unwrap_or(0)`: `colors.rs:300`, `316` -/
def fromRadix (s : Str) : Nat :=
  (s.foldl (fun acc c => acc.bind fun n => (digit c).map fun d => n * 16 + d) (some 0)).getD 0

/-- `colors.rs:207-215` -/
def isHex (s : Str) : Bool :=
  match s with
  | '#' :: r => r.all fun c => (digit c).isSome
  | _ => false

/-- `convert_from_hex_str_to_vec_of_ints`, `colors.rs:289-322`; all characters are ASCII here, so byte positions are
character positions -/
def ints (s : Str) (size : Nat) : List Nat :=
  if size = 1 then (s.drop 1).map fun c => fromRadix [c]
  else if size = 2 then
    (if s.length = 7 then [(s.drop 1).take 2, (s.drop 3).take 2, (s.drop 5).take 2]
      else [(s.drop 1).take 2, (s.drop 3).take 2, (s.drop 5).take 2, (s.drop 7).take 2]).map fromRadix
  else []

/-- `number_array[i]`; the indices used are in range -/
def at' (l : List Nat) (i : Nat) : Nat := (l[i]?).getD 0

/-- `colors.rs:217-287` -/
def parseHex (s : Str) : Rgb :=
  if !isHex s then .default
  else if s.length = 4 then
    let n := ints s 1
    ⟨at' n 0 * 16 + at' n 0, at' n 1 * 16 + at' n 1, at' n 2 * 16 + at' n 2, 255⟩
  else if s.length = 5 then
    let n := ints s 1
    ⟨at' n 0 * 16 + at' n 0, at' n 1 * 16 + at' n 1, at' n 2 * 16 + at' n 2, at' n 3 * 16 + at' n 3⟩
  else if s.length = 7 then
    let n := ints s 2
    ⟨at' n 0, at' n 1, at' n 2, 255⟩
  else if s.length = 9 then
    let n := ints s 2
    ⟨at' n 0, at' n 1, at' n 2, at' n 3⟩
  else .default

/-- `RgbColor::from`, `colors.rs:46-100`; `others` is what the branches after the one for `#` do -/
def ofStr (others : Str → Rgb) (s : Str) : Rgb :=
  if s.isEmpty then .default
  else if s = "currentcolor".toList then .default
  else if ['#'].isPrefixOf s then parseHex s
  else others s

end Verif.Color
