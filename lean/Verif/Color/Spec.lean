import Verif.Color.Model

/-!
# Specification of hexadecimal colours (CSS Color 4, 5.2)
-/
namespace Verif.Color
open Verif

/-- the digits -/
def lowerDigits : List Char := "0123456789abcdef".toList
/-- the digits -/
def upperDigits : List Char := "0123456789ABCDEF".toList

/-- the character is the hexadecimal digit for `n` -/
def IsDigit (c : Char) (n : Nat) : Prop := lowerDigits[n]? = some c ∨ upperDigits[n]? = some c

/-- the characters are the hexadecimal digits for these numbers, one each -/
def Digits (s : Str) (l : List Nat) : Prop := List.Forall₂ IsDigit s l

/-- a character to digit from a table of digits -/
def digitChar (table : List Char) (n : Nat) : Char := (table[n]?).getD '0'

/-- a channel written with two digits -/
def twoDigits (table : List Char) (n : Nat) : Str := [digitChar table (n / 16), digitChar table (n % 16)]

end Verif.Color
