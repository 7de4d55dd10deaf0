import Verif.ByteStream.Model
/-!
# Specification vocabulary for the character stream (C01–C06)

Nothing here refers to the decoder, the line table or the offset table of the model.
-/
namespace Verif.ByteStream.Spec
open Verif.ByteStream Character

/-- The decoded characters of a text. -/
def ofText (t : List Char) : List Character := t.map fun c => ch c.toNat

/-- UTF-8 encoding of a text (Lean core's `String.utf8EncodeChar`). -/
def encode (t : List Char) : List UInt8 := t.flatMap String.utf8EncodeChar

/-- Does the character `c`, followed by `rest`, end its line?  A LF always does; a CR that is not
followed by LF does when CR is configured to act as a newline. -/
def endsLine (cfg : Config) (c : Character) (rest : List Character) : Bool :=
  c = ch LF || (cfg.replaceCrAsLf && decide (c = ch CR) && decide (rest.head? ≠ some (ch LF)))

/-- Line and column (1-based) of position `p`, by scanning the text from its start. -/
def lineColFrom (cfg : Config) (line col : Nat) : List Character → Nat → Nat × Nat
  | _, 0 => (line, col)
  | [], _ + 1 => (line, col)
  | c :: rest, p + 1 =>
    if endsLine cfg c rest then lineColFrom cfg (line + 1) 1 rest p
    else lineColFrom cfg line (col + 1) rest p

def lineCol (cfg : Config) (cs : List Character) (p : Nat) : Nat × Nat := lineColFrom cfg 1 1 cs p

/-- What reading a text to its end yields: CR LF becomes one LF when `crLfAsOne`, a lone CR becomes
LF when `replaceCrAsLf`; nothing else changes. -/
def normalize (cfg : Config) : List Character → List Character
  | [] => []
  | [c] => if c = ch CR ∧ cfg.replaceCrAsLf = true then [ch LF] else [c]
  | c :: d :: rest =>
    if c = ch CR then
      if d = ch LF then
        if cfg.crLfAsOne = true then ch LF :: normalize cfg rest
        else ch CR :: normalize cfg (d :: rest)
      else (if cfg.replaceCrAsLf = true then ch LF else ch CR) :: normalize cfg (d :: rest)
    else c :: normalize cfg (d :: rest)

/-- Collapse CR LF to LF, on plain text. -/
def collapse : List Char → List Char
  | [] => []
  | [c] => [c]
  | c :: d :: rest =>
    if c = '\r' ∧ d = '\n' then '\n' :: collapse rest else c :: collapse (d :: rest)

/-- Complete UTF-16 code units of a byte sequence. -/
def units (be : Bool) : List UInt8 → List Nat
  | a :: b :: r => u16 be a b :: units be r
  | _ => []

/-- The last complete code unit is not a high surrogate. -/
def NotAfterHigh (be : Bool) (bs : List UInt8) : Prop :=
  ∀ u, (units be bs).getLast? = some u → ¬ (0xD800 ≤ u ∧ u ≤ 0xDBFF)

/-- Calls that only deliver bytes or move around: neither closing, nor replacing the contents, nor
changing the encoding. -/
def isFeed : Op → Bool
  | .append _ | .readAndNext | .nextN _ | .prevN _ | .seek _ | .getSlice _ | .location | .reset => true
  | _ => false

/-- Calls that only move around or look. -/
def isMove : Op → Bool
  | .readAndNext | .nextN _ | .prevN _ | .seek _ | .getSlice _ | .location | .reset => true
  | _ => false

/-- All bytes delivered by a history, in order. -/
def delivered : List Op → List UInt8
  | [] => []
  | .append bs :: ops => bs ++ delivered ops
  | _ :: ops => delivered ops

/-- States of a stream after any history of calls. -/
def Reachable (s : Stream) : Prop := ∃ e cfg ops, s = run (new e cfg) ops

/-- What a call returns to its caller. -/
inductive Result where
  | char (c : Character)
  | slice (cs : List Character)
  | loc (l : Location)
  | unit
deriving DecidableEq, Repr

def result (s : Stream) : Op → Result
  | .readAndNext => .char (readAndNext s).1
  | .getSlice n => .slice (getSlice s n).1
  | .location => .loc (location s).1
  | _ => .unit

/-- Everything a client learns from a sequence of calls: each call's answer, and after each call the
current character, any look-ahead up to `k`, the byte offset and the end-of-stream flags. -/
def trace (k : Nat) (s : Stream) :
    List Op → List (Result × List Character × Nat × Bool × Bool)
  | [] => []
  | op :: ops =>
    (result s op, (List.range k).map (lookAhead (step s op)), tellBytes (step s op),
      exhausted (step s op), eof (step s op)) :: trace k (step s op) ops

/-- Peeks: a look-ahead, a slice, a location query, or an excursion: remember the byte offset, move
around arbitrarily, and seek back to the remembered offset. -/
inductive Peek where
  | lookAhead (n : Nat)
  | slice (n : Nat)
  | location
  | excursion (moves : List Op)

def peek (s : Stream) : Peek → Stream
  | .lookAhead _ => s
  | .slice n => (getSlice s n).2
  | .location => (location s).2
  | .excursion moves => seekBytes (run s moves) (tellBytes s)

def Peek.ok : Peek → Bool
  | .excursion moves => moves.all isMove
  | _ => true

end Verif.ByteStream.Spec
