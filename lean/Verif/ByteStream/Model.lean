/-!
# Model of `crates/gosub_shared/src/byte_stream.rs`

`Vec<T>` is `List T`, `usize` is `Nat`, a `&mut self` method returns the new state.
A Unicode character is its scalar value (`Nat`).  Bytes handed to `append` are arbitrary byte
lists; the Rust `append_str` takes a `&str` (so its chunks are a subset of what is covered here).
`std::str::from_utf8` is transcribed from its documented behaviour (`Utf8Error::valid_up_to`,
`Utf8Error::error_len`), as implemented by `core::str::validations::run_utf8_validation`.
-/
set_option linter.unusedVariables false

namespace Verif.ByteStream

/-- byte_stream.rs:9-14 `CHAR_LF` -/
def LF : Nat := 0x0A
/-- byte_stream.rs:9-14 `CHAR_CR` -/
def CR : Nat := 0x0D
/-- `char::REPLACEMENT_CHARACTER` (U+FFFD) -/
def REPL : Nat := 0xFFFD

/-- byte_stream.rs:18-60 `enum Character` -/
inductive Character where
  | ch (code : Nat)
  | surrogate (unit : Nat)
  | streamEnd
deriving DecidableEq, Repr

open Character

/-- byte_stream.rs `enum Encoding` -/
inductive Encoding where
  | unknown | utf8 | latin1 | utf16le | utf16be
deriving DecidableEq, Repr

/-- byte_stream.rs:88-108 `struct Config` -/
structure Config where
  crLfAsOne : Bool := true
  replaceCrAsLf : Bool := false
  replaceHighAscii : Bool := false
deriving DecidableEq, Repr

/-- byte_stream.rs:110-134 `struct ByteStream` -/
structure Stream where
  buffer : List UInt8
  chars : List Character
  offs : List Nat
  decodedBytes : Nat
  lineStarts : List Nat
  lastLineIdx : Nat
  linesScanned : Nat
  charPos : Nat
  closed : Bool
  encoding : Encoding
  config : Config
deriving DecidableEq, Repr

/-- byte_stream.rs:314-328 `ByteStream::new` -/
def new (e : Encoding) (c : Config) : Stream :=
  { buffer := [], chars := [], offs := [], decodedBytes := 0, lineStarts := [0], lastLineIdx := 0,
    linesScanned := 0, charPos := 0, closed := false, encoding := e, config := c }

/-! ## UTF-8 -/

/-- Result of looking at the front of a byte sequence, as `core::str` validation does. -/
inductive Utf8Step where
  /-- a valid character of `n` bytes -/
  | char (code n : Nat)
  /-- malformed: `error_len() == Some(n)` -/
  | bad (n : Nat)
  /-- unexpected end of input: `error_len() == None` -/
  | incomplete
deriving DecidableEq, Repr

/-- continuation byte 0x80..=0xBF -/
def isCont (b : UInt8) : Bool := 0x80 ≤ b.toNat && b.toNat ≤ 0xBF

/-- second byte accepted after a 3-byte lead (`run_utf8_validation`, arm `3 =>`) -/
def ok3 (a b : UInt8) : Bool :=
  (a.toNat == 0xE0 && 0xA0 ≤ b.toNat && b.toNat ≤ 0xBF) ||
  (0xE1 ≤ a.toNat && a.toNat ≤ 0xEC && isCont b) ||
  (a.toNat == 0xED && 0x80 ≤ b.toNat && b.toNat ≤ 0x9F) ||
  (0xEE ≤ a.toNat && a.toNat ≤ 0xEF && isCont b)

/-- second byte accepted after a 4-byte lead (`run_utf8_validation`, arm `4 =>`) -/
def ok4 (a b : UInt8) : Bool :=
  (a.toNat == 0xF0 && 0x90 ≤ b.toNat && b.toNat ≤ 0xBF) ||
  (0xF1 ≤ a.toNat && a.toNat ≤ 0xF3 && isCont b) ||
  (a.toNat == 0xF4 && 0x80 ≤ b.toNat && b.toNat ≤ 0x8F)

/-- One character step of `core::str::validations::run_utf8_validation` on a non-empty slice.
On `[]` (never asked by the callers) it answers `incomplete`. -/
def utf8Step : List UInt8 → Utf8Step
  | [] => .incomplete
  | a :: r1 =>
    if a.toNat < 0x80 then .char a.toNat 1
    else if 0xC2 ≤ a.toNat && a.toNat ≤ 0xDF then
      match r1 with
      | [] => .incomplete
      | b :: _ =>
        if isCont b then .char ((a.toNat - 0xC0) * 64 + (b.toNat - 0x80)) 2 else .bad 1
    else if 0xE0 ≤ a.toNat && a.toNat ≤ 0xEF then
      match r1 with
      | [] => .incomplete
      | b :: r2 =>
        if ok3 a b then
          match r2 with
          | [] => .incomplete
          | c :: _ =>
            if isCont c then
              .char ((a.toNat - 0xE0) * 4096 + (b.toNat - 0x80) * 64 + (c.toNat - 0x80)) 3
            else .bad 2
        else .bad 1
    else if 0xF0 ≤ a.toNat && a.toNat ≤ 0xF4 then
      match r1 with
      | [] => .incomplete
      | b :: r2 =>
        if ok4 a b then
          match r2 with
          | [] => .incomplete
          | c :: r3 =>
            if isCont c then
              match r3 with
              | [] => .incomplete
              | d :: _ =>
                if isCont d then
                  .char ((a.toNat - 0xF0) * 262144 + (b.toNat - 0x80) * 4096
                    + (c.toNat - 0x80) * 64 + (d.toNat - 0x80)) 4
                else .bad 3
            else .bad 2
        else .bad 1
    else .bad 1

/-- Number of bytes a step covers. -/
def Utf8Step.len : Utf8Step → Nat
  | .char _ n => n
  | .bad n => n
  | .incomplete => 0

theorem utf8Step_pos {bs : List UInt8} (h : utf8Step bs ≠ .incomplete) :
    0 < (utf8Step bs).len ∧ (utf8Step bs).len ≤ bs.length := by
  revert h
  fun_cases utf8Step bs <;> simp [Utf8Step.len]

/-- Result of `std::str::from_utf8(&buffer[pos..])`: the valid characters with their byte offsets,
the offset where validation stopped and, on error, `error_len()`. -/
structure Utf8Result where
  items : List (Nat × Character)
  validUpTo : Nat
  err : Option (Option Nat)
deriving DecidableEq, Repr

/-- `std::str::from_utf8`, starting at absolute offset `pos`. -/
def fromUtf8 (pos : Nat) (bs : List UInt8) : Utf8Result :=
  if bs = [] then { items := [], validUpTo := pos, err := none }
  else
    match h : utf8Step bs with
    | .char c n =>
      let r := fromUtf8 (pos + n) (bs.drop n)
      { r with items := (pos, ch c) :: r.items }
    | .bad n => { items := [], validUpTo := pos, err := some (some n) }
    | .incomplete => { items := [], validUpTo := pos, err := some none }
termination_by bs.length
decreasing_by
  have := utf8Step_pos (bs := bs) (by rw [h]; simp)
  rw [h] at this; simp [Utf8Step.len] at this; simp; omega

/-- The UTF-8 loop of `decode_from`, byte_stream.rs:388-434.  `bs` is `buffer[pos..]`.
Returns the pushed characters and the new `byte_pos`. -/
def decodeUtf8 (closed : Bool) (pos : Nat) (bs : List UInt8) : List (Nat × Character) × Nat :=
  if bs = [] then ([], pos)
  else
    match h : fromUtf8 pos bs with
    | { items, validUpTo, err := none } => (items, pos + bs.length)
    | { items, validUpTo, err := some (some n) } =>
      if hn : 0 < n ∧ n ≤ bs.length then
        let k := validUpTo - pos + n
        let r := decodeUtf8 closed (pos + k) (bs.drop k)
        (items ++ (validUpTo, ch REPL) :: r.1, r.2)
      else (items, validUpTo) -- unreachable: `error_len` is 1..=3 (see `fromUtf8_err_len`)
    | { items, validUpTo, err := some none } =>
      if closed then (items ++ [(validUpTo, ch REPL)], pos + bs.length)
      else (items, validUpTo)
termination_by bs.length
decreasing_by simp; omega

/-! ## Latin-1 -/

/-- The Latin-1 loop of `decode_from`, byte_stream.rs:375-386. -/
def decodeLatin1 (cfg : Config) (pos : Nat) : List UInt8 → List (Nat × Character)
  | [] => []
  | b :: bs =>
    (pos, if cfg.replaceHighAscii && decide (b.toNat > 127) then ch 0x3F else ch b.toNat)
      :: decodeLatin1 cfg (pos + 1) bs

/-! ## UTF-16 -/

/-- `u16::from_le_bytes` / `u16::from_be_bytes` -/
def u16 (be : Bool) (a b : UInt8) : Nat :=
  if be then a.toNat * 256 + b.toNat else b.toNat * 256 + a.toNat

/-- byte_stream.rs:651-666 `decode_utf16_char`; the arm `char::from_u32(..) = None` cannot occur
for the code points passed and is therefore not represented. -/
def decodeUtf16Char (cu : Nat) (next : Option Nat) : Character × Nat :=
  if 0xD800 ≤ cu ∧ cu ≤ 0xDBFF then
    match next with
    | some low =>
      if 0xDC00 ≤ low ∧ low ≤ 0xDFFF then
        (ch (0x10000 + (cu - 0xD800) * 1024 + (low - 0xDC00)), 4)
      else (surrogate cu, 2)
    | none => (surrogate cu, 2)
  else if 0xDC00 ≤ cu ∧ cu ≤ 0xDFFF then (surrogate cu, 2)
  else (ch cu, 2)

/-- the following code unit, if two more bytes are available -/
def nextUnit (be : Bool) : List UInt8 → Option Nat
  | c :: d :: _ => some (u16 be c d)
  | _ => none

/-- The UTF-16 loops of `decode_from`, byte_stream.rs:435-466.  Fuelled by the number of bytes. -/
def decodeUtf16 (be : Bool) : Nat → Nat → List UInt8 → List (Nat × Character) × Nat
  | 0, pos, _ => ([], pos)
  | fuel + 1, pos, bs =>
    match bs with
    | a :: b :: rest =>
      let d := decodeUtf16Char (u16 be a b) (nextUnit be rest)
      let r := decodeUtf16 be fuel (pos + d.2) (bs.drop d.2)
      ((pos, d.1) :: r.1, r.2)
    | _ => ([], pos)

/-! ## Line table -/

/-- `while line_starts.last() > i { pop }`, byte_stream.rs:484-486 -/
def popWhileGt (i : Nat) (ls : List Nat) : List Nat :=
  (ls.reverse.dropWhile (fun v => decide (v > i))).reverse

/-- The scanning loop of `extend_line_starts`, byte_stream.rs:488-509.  `cs` is `chars[i..]`. -/
def scanLines (cfg : Config) (i : Nat) : List Character → List Nat
  | [] => []
  | c :: rest =>
    if c = ch CR ∧ cfg.crLfAsOne = true ∧ rest.head? = some (ch LF) then
      match rest with
      | [] => []
      | _ :: rest' => (i + 2) :: scanLines cfg (i + 2) rest'
    else if c = ch CR ∧ cfg.replaceCrAsLf = true ∧ rest.head? ≠ some (ch LF) then
      (i + 1) :: scanLines cfg (i + 1) rest
    else if c = ch LF then
      (i + 1) :: scanLines cfg (i + 1) rest
    else scanLines cfg (i + 1) rest

/-- byte_stream.rs:477-511 `extend_line_starts` -/
def extendLineStarts (s : Stream) : Stream :=
  let i := s.linesScanned
  let (i, ls) :=
    if i > 0 ∧ s.chars[i - 1]? = some (ch CR) then (i - 1, popWhileGt (i - 1) s.lineStarts)
    else (i, s.lineStarts)
  { s with
    lineStarts := ls ++ scanLines s.config i (s.chars.drop i)
    linesScanned := s.chars.length }

/-- Characters produced from `buffer[pos..]` and the new `decoded_bytes`, byte_stream.rs:370-468. -/
def decodeItems (e : Encoding) (cfg : Config) (closed : Bool) (pos : Nat) (bs : List UInt8) :
    List (Nat × Character) × Nat :=
  match e with
  | .unknown => ([], pos + bs.length)
  | .latin1 => (decodeLatin1 cfg pos bs, pos + bs.length)
  | .utf8 => decodeUtf8 closed pos bs
  | .utf16le => decodeUtf16 false bs.length pos bs
  | .utf16be => decodeUtf16 true bs.length pos bs

/-- byte_stream.rs:370-472 `decode_from`.  If `bytePos` is beyond the buffer the loops do not run;
`byte_pos` then stays as it was except for `Unknown`, where it becomes `buffer.len()`. -/
def decodeFrom (s : Stream) (bytePos : Nat) : Stream :=
  let r := if bytePos ≤ s.buffer.length then
      decodeItems s.encoding s.config s.closed bytePos (s.buffer.drop bytePos)
    else if s.encoding = .unknown then ([], s.buffer.length) else ([], bytePos)
  extendLineStarts
    { s with
      chars := s.chars ++ r.1.map (·.2)
      offs := s.offs ++ r.1.map (·.1)
      decodedBytes := r.2 }

/-- byte_stream.rs:354-363 `decode_buffer` -/
def decodeBuffer (s : Stream) : Stream :=
  decodeFrom { s with chars := [], offs := [], decodedBytes := 0, lineStarts := [0],
                      linesScanned := 0, lastLineIdx := 0 } 0

/-- byte_stream.rs:532-537 `append_str` (on raw bytes) -/
def append (s : Stream) (bs : List UInt8) : Stream :=
  let s := { s with buffer := s.buffer ++ bs }
  decodeFrom s s.decodedBytes

/-- byte_stream.rs:539-544 inherent `close` -/
def close (s : Stream) : Stream :=
  let s := { s with closed := true }
  decodeFrom s s.decodedBytes

/-- byte_stream.rs:268-270 `reset_stream` -/
def resetStream (s : Stream) : Stream := { s with charPos := 0 }

/-- byte_stream.rs:331-338 `from_str` (on raw bytes) -/
def fromStr (bs : List UInt8) (e : Encoding) : Stream :=
  decodeBuffer { new e {} with buffer := bs, closed := true }

/-- byte_stream.rs:522-530 `read_from_str` (on raw bytes) -/
def readFromStr (s : Stream) (bs : List UInt8) (e : Option Encoding) : Stream :=
  resetStream (decodeBuffer
    { s with buffer := bs, closed := false, encoding := e.getD s.encoding })

/-- byte_stream.rs:513-520 `read_from_file` (contents already read) -/
def readFromFile (s : Stream) (bs : List UInt8) : Stream :=
  resetStream (decodeBuffer (close { s with buffer := bs }))

/-- byte_stream.rs:546-551 `read_from_bytes` -/
def readFromBytes (s : Stream) (bs : List UInt8) : Stream :=
  resetStream (close { s with buffer := bs })

/-! ## Reading -/

/-- byte_stream.rs:185-191 `read` -/
def read (s : Stream) : Character := (s.chars[s.charPos]?).getD streamEnd

/-- byte_stream.rs:193-208 `read_and_next` -/
def readAndNext (s : Stream) : Character × Stream :=
  let c := read s
  if c = streamEnd then (c, s)
  else
    let s := { s with charPos := s.charPos + 1 }
    if s.config.crLfAsOne = true ∧ c = ch CR ∧ read s = ch LF then
      (ch LF, { s with charPos := s.charPos + 1 })
    else if s.config.replaceCrAsLf = true ∧ c = ch CR ∧ read s ≠ ch LF then (ch LF, s)
    else (c, s)

/-- byte_stream.rs:210-217 `look_ahead` -/
def lookAhead (s : Stream) (o : Nat) : Character := (s.chars[s.charPos + o]?).getD streamEnd

/-- byte_stream.rs:223-225 `next_n` -/
def nextN (s : Stream) (o : Nat) : Stream :=
  { s with charPos := min (s.charPos + o) s.chars.length }

/-- one iteration of byte_stream.rs:231-244 `prev_n`, i.e. `prev` -/
def prev (s : Stream) : Stream :=
  let s := { s with charPos := s.charPos - 1 }
  if s.config.crLfAsOne = true ∧ read s = ch LF ∧ s.charPos > 0
      ∧ s.chars[s.charPos - 1]? = some (ch CR) then
    { s with charPos := s.charPos - 1 }
  else s

/-- byte_stream.rs:231-244 `prev_n` -/
def prevN (s : Stream) : Nat → Stream
  | 0 => s
  | n + 1 => prevN (prev s) n

/-- `slice::partition_point(|b| b < offset)` on an increasing slice: length of the longest prefix
satisfying the predicate (Rust's contract; the slice is partitioned, see `Inv.offsSorted`). -/
def partitionPoint (ls : List Nat) (o : Nat) : Nat := (ls.takeWhile (fun b => decide (b < o))).length

/-- byte_stream.rs:246-249 `seek_bytes` -/
def seekBytes (s : Stream) (o : Nat) : Stream :=
  { s with charPos := min (partitionPoint s.offs o) s.chars.length }

/-- byte_stream.rs:251-256 `tell_bytes` -/
def tellBytes (s : Stream) : Nat := (s.offs[s.charPos]?).getD s.buffer.length

/-- the loop of `get_slice` -/
def readSlice (s : Stream) : Nat → List Character
  | 0 => []
  | n + 1 => (readAndNext s).1 :: readSlice (readAndNext s).2 n

/-- the state at the end of the loop of `get_slice` -/
def afterSlice (s : Stream) : Nat → Stream
  | 0 => s
  | n + 1 => afterSlice (readAndNext s).2 n

/-- byte_stream.rs:258-266 `get_slice`: mark, read `len` characters, reset to mark. -/
def getSlice (s : Stream) (len : Nat) : List Character × Stream :=
  (readSlice s len, { afterSlice s len with charPos := s.charPos })

/-- byte_stream.rs:280-286 `exhausted`, `eof` -/
def exhausted (s : Stream) : Bool := decide (s.chars.length ≤ s.charPos)
def eof (s : Stream) : Bool := s.closed && exhausted s

/-- byte_stream.rs:595-608 `set_encoding` -/
def setEncoding (s : Stream) (e : Encoding) : Stream :=
  if s.encoding = e then s
  else
    let cur := tellBytes s
    let s := decodeBuffer { s with encoding := e }
    nextN (resetStream s) (partitionPoint s.offs cur)

/-- byte_stream.rs:620-640 `struct Location` -/
structure Location where
  line : Nat
  column : Nat
  offset : Nat
deriving DecidableEq, Repr

/-- first loop of `location`: `while idx > 0 && line_starts[idx] > char_pos { idx -= 1 }` -/
def walkDown (ls : List Nat) (p : Nat) : Nat → Nat
  | 0 => 0
  | i + 1 => if (ls[i + 1]?).getD 0 > p then walkDown ls p i else i + 1

/-- second loop of `location`:
`while idx + 1 < len && line_starts[idx + 1] <= char_pos { idx += 1 }`, fuelled by the length. -/
def walkUp (ls : List Nat) (p : Nat) : Nat → Nat → Nat
  | 0, i => i
  | fuel + 1, i =>
    match ls[i + 1]? with
    | some v => if v ≤ p then walkUp ls p fuel (i + 1) else i
    | none => i

/-- byte_stream.rs:288-309 `location`: the answer and the stream with its cached hint updated.
`line_starts` is never empty (`Inv`), so `line_starts[idx]` is always in range. -/
def location (s : Stream) : Location × Stream :=
  let idx := min s.lastLineIdx (s.lineStarts.length - 1)
  let idx := walkDown s.lineStarts s.charPos idx
  let idx := walkUp s.lineStarts s.charPos s.lineStarts.length idx
  ({ line := idx + 1
     column := s.charPos - (s.lineStarts[idx]?).getD 0 + 1
     offset := (s.offs[s.charPos]?).getD s.buffer.length },
   { s with lastLineIdx := idx })

/-! ## Histories -/

/-- The calls a client can make on a stream (everything except `read_from_bytes`, which is treated
separately because it does not reset the decoder). -/
inductive Op where
  | append (bs : List UInt8)
  | close
  | readAndNext
  | nextN (n : Nat)
  | prevN (n : Nat)
  | seek (o : Nat)
  | getSlice (n : Nat)
  | location
  | reset
  | setEncoding (e : Encoding)
  | readFromStr (bs : List UInt8) (e : Option Encoding)
  | readFromFile (bs : List UInt8)
deriving Repr

def step (s : Stream) : Op → Stream
  | .append bs => append s bs
  | .close => close s
  | .readAndNext => (readAndNext s).2
  | .nextN n => nextN s n
  | .prevN n => prevN s n
  | .seek o => seekBytes s o
  | .getSlice n => (getSlice s n).2
  | .location => (location s).2
  | .reset => resetStream s
  | .setEncoding e => setEncoding s e
  | .readFromStr bs e => readFromStr s bs e
  | .readFromFile bs => readFromFile s bs

def run (s : Stream) (ops : List Op) : Stream := ops.foldl step s

end Verif.ByteStream
