import Verif.Util
import Verif.Map

/-!
# Model of the settings store

Files modelled (in /repo/crates/gosub_config/src): `settings.rs`, `lib.rs`, `storage/memory.rs`,
`storage/sqlite.rs`, `storage/json.rs`.

Every public call of `Config` takes the store's lock for its whole critical section, so one call is one
atomic step; callbacks run after the lock is released and are represented by the list of notifications
a step emits.  `f64` values are bit patterns (`Nat`), and the functions of the standard library and of
other crates on them, Unicode upper-casing and wildcard matching are the fields of `Ext`.
-/
namespace Verif.Config
open Verif Verif.Map

/-- functions from outside the modelled code -/
structure Ext where
  /-- `f64::to_string` -/
  fdisp : Nat → Str
  /-- `str::parse::<f64>` -/
  fparse : Str → Option Nat
  /-- `f64 as isize` (truncating, saturating) -/
  fint : Nat → Int
  /-- `==` on `f64` -/
  feq : Nat → Nat → Bool
  /-- `cow_to_uppercase` -/
  upper : Str → Str
  /-- `WildMatch::new(pattern).matches(key)` -/
  wild : Str → Str → Bool

/-- `settings.rs:11-18`; `isize`/`usize` as integers, see `Setting.InRange` -/
inductive Setting
  | sint (n : Int)
  | uint (n : Nat)
  | float (bits : Nat)
  | string (s : Str)
  | bool (b : Bool)
  | map (vs : List Str)
  deriving DecidableEq, Repr

/-- decimal text of an integer (`isize::to_string`) -/
def intStr (n : Int) : Str :=
  if n < 0 then '-' :: Nat.toDigits 10 n.natAbs else Nat.toDigits 10 n.natAbs

/-- decimal text of a natural number (`usize::to_string`) -/
def natStr (n : Nat) : Str := Nat.toDigits 10 n

/-- `bool::to_string` -/
def boolStr (b : Bool) : Str := (if b then "true" else "false").toList

/-- `settings.rs:150-157` -/
def isBoolValue (e : Ext) (s : Str) : Bool :=
  decide (e.upper s ∈ ["YES".toList, "ON".toList, "TRUE".toList, "1".toList])

/-- `usize as isize` on a 64-bit target -/
def wrapUsize (n : Nat) : Int := if n < 2 ^ 63 then (n : Int) else (n : Int) - 2 ^ 64

/-- `settings.rs:38-51` -/
def Setting.toSint (e : Ext) : Setting → Int
  | .sint n => n
  | .uint n => wrapUsize n
  | .float b => e.fint b
  | .bool b => if b then 1 else 0
  | .string s => if isBoolValue e s then 1 else 0
  | .map vs => (vs.length : Int)

/-- `settings.rs:138-147` -/
def Setting.valueString (e : Ext) : Setting → Str
  | .sint n => intStr n
  | .uint n => natStr n
  | .float b => e.fdisp b
  | .string s => s
  | .bool b => boolStr b
  | .map vs => join [','] vs

/-- `settings.rs:178-189` (`Display`) -/
def Setting.display (e : Ext) : Setting → Str
  | .sint n => 'i' :: ':' :: intStr n
  | .uint n => 'u' :: ':' :: natStr n
  | .float b => 'f' :: ':' :: e.fdisp b
  | .string s => 's' :: ':' :: s
  | .bool b => 'b' :: ':' :: boolStr b
  | .map vs => 'm' :: ':' :: join [','] vs

/-- the digits after an optional `+` (`str::parse::<usize>`) -/
def plusDigits : Str → Option Nat
  | '+' :: r => parseDigits r
  | r => parseDigits r

/-- `str::parse::<usize>` -/
def parseUsize (s : Str) : Option Nat :=
  match plusDigits s with
  | some n => if n < 2 ^ 64 then some n else none
  | none => none

/-- `settings.rs:205-244` (`FromStr`) -/
def Setting.parse (e : Ext) (s : Str) : Option Setting :=
  match splitOnce ':' s with
  | none => none
  | some (t, v) =>
    if t = ['b'] then
      if v = "true".toList then some (.bool true)
      else if v = "false".toList then some (.bool false) else none
    else if t = ['i'] then (parseI64 v).map .sint
    else if t = ['u'] then (parseUsize v).map .uint
    else if t = ['f'] then (e.fparse v).map .float
    else if t = ['s'] then some (.string v)
    else if t = ['m'] then
      if v = [] then some (.map []) else some (.map (splitOn ',' v))
    else none

/-- `==` on settings (derived `PartialEq`, `settings.rs:10`) -/
def Setting.eqv (e : Ext) : Setting → Setting → Bool
  | .sint a, .sint b => decide (a = b)
  | .uint a, .uint b => decide (a = b)
  | .float a, .float b => e.feq a b
  | .string a, .string b => decide (a = b)
  | .bool a, .bool b => decide (a = b)
  | .map a, .map b => decide (a = b)
  | _, _ => false

/-- `settings.rs:250-256` -/
inductive Constraint
  | enum (vs : List Str)
  | range (rs : List (Int × Int))
  deriving DecidableEq, Repr

/-- `settings.rs:297-308` -/
def Constraint.allows (e : Ext) : Constraint → Setting → Bool
  | .enum vs, v => vs.any fun a => decide (a = v.valueString e)
  | .range rs, v => rs.any fun r => decide (r.1 ≤ v.toSint e ∧ v.toSint e ≤ r.2)

/-- position of the first `-` from index 1 on, and what is around it – `settings.rs:326-328` -/
def splitDash : Str → Option (Str × Str)
  | [] => none
  | c :: r => match splitOnce '-' r with
    | some (a, b) => some (c :: a, b)
    | none => none

/-- `settings.rs:320-330`; the outer `none` is the panic of `token[1..]` when the token's first
character is longer than one byte.  Tokens are not empty. -/
def parseRangeToken (t : Str) : Option (Option (Int × Int)) :=
  match parseI64 t with
  | some n => some (some (n, n))
  | none =>
    match t with
    | [] => none
    | c :: _ =>
      if c.toNat < 128 then
        match splitDash t with
        | none => some none
        | some (a, b) => match parseI64 a, parseI64 b with
          | some lo, some hi => some (some (lo, hi))
          | _, _ => some none
      else none

/-- `settings.rs:269`: collecting into an `Option` stops at the first token that is not a range.  The
outer `none` is a panic. -/
def parseRanges : List Str → Option (Option (List (Int × Int)))
  | [] => some (some [])
  | t :: r =>
    match parseRangeToken t with
    | none => none
    | some none => some none
    | some (some x) =>
      match parseRanges r with
      | none => none
      | some none => some none
      | some (some xs) => some (some (x :: xs))

/-- `settings.rs:264` -/
def tokensOf (values : Str) : List Str := ((splitOn ',' values).map trim).filter fun t => decide (t ≠ [])

/-- `settings.rs:263-274`; the outer `none` is a panic -/
def Constraint.parse (values : Str) : Option (Option Constraint) :=
  let ts := tokensOf values
  if ts = [] then some none
  else match parseRanges ts with
    | none => none
    | some (some rs) => some (some (.range rs))
    | some none => some (some (.enum ts))

/-- `settings.rs:279-287` -/
def Constraint.tokens : Constraint → List Str
  | .enum vs => vs
  | .range rs => rs.map fun r => if r.1 = r.2 then intStr r.1 else intStr r.1 ++ '-' :: intStr r.2

/-- `settings.rs:334-343` without the description -/
structure Info where
  key : Str
  default : Setting
  constraint : Option Constraint
  deriving DecidableEq, Repr

/-- `std::mem::discriminant` on settings -/
def Setting.tag : Setting → Nat
  | .sint _ => 0
  | .uint _ => 1
  | .float _ => 2
  | .string _ => 3
  | .bool _ => 4
  | .map _ => 5

/-- `lib.rs:21-46`: a storage adapter with state `σ`.  `none`/`false` is an error. -/
structure Adapter (σ : Type) where
  load : σ → Str → Option (Option Setting)
  save : σ → Str → Setting → σ × Bool
  erase : σ → Str → σ × Bool
  all : σ → Option (List (Str × Setting))

/-- `lib.rs:264-276` (and `59-63` for subscriptions: id and pattern; the callback is identified by the
id) -/
structure Store (σ : Type) where
  vals : List (Str × Setting)
  infos : List (Str × Info)
  keys : List Str
  sto : σ
  subs : List (Nat × Str)
  next : Nat

/-- `lib.rs:291-296` -/
def addInfo {σ : Type} (s : Store σ) (i : Info) : Store σ :=
  { s with vals := put s.vals i.key i.default, keys := s.keys ++ [i.key], infos := put s.infos i.key i }

/-- `lib.rs:281-299`, with the storage given -/
def new {σ : Type} (schema : List Info) (sto : σ) : Store σ :=
  schema.foldl addInfo ⟨[], [], [], sto, [], 0⟩

/-- what a call reports; `fail` is an error from the storage -/
inductive Res
  | ok | unknownKey | wrongType | notAllowed | storageError
  deriving DecidableEq, Repr

/-- `lib.rs:344-361` (`get`): the value (`none` = error) and the store with the value cached -/
def read {σ : Type} (A : Adapter σ) (s : Store σ) (k : Str) : Option (Option Setting) × Store σ :=
  match look s.vals k with
  | some v => (some (some v), s)
  | none =>
    match A.load s.sto k with
    | none => (none, s)
    | some (some v) => (some (some v), { s with vals := put s.vals k v })
    | some none =>
      match look s.infos k with
      | some i => (some (some i.default), s)
      | none => (some none, s)

/-- `lib.rs:393`, `lib.rs:419`: does the stored value differ? -/
def differs {σ : Type} (e : Ext) (s : Store σ) (k : Str) (v : Setting) : Bool :=
  match look s.vals k with
  | some w => !w.eqv e v
  | none => true

/-- `lib.rs:382-389`: the constraint, if there is one, allows the value -/
def allowed (e : Ext) (i : Info) (v : Setting) : Bool :=
  match i.constraint with
  | some c => c.allows e v
  | none => true

/-- `lib.rs:367-400` (`set`): the new store, the report, and the value to announce.
Simplified: the announcement is decided here and sent by `step`. -/
def setVal {σ : Type} (e : Ext) (A : Adapter σ) (s : Store σ) (k : Str) (v : Setting) :
    Store σ × Res × Option Setting :=
  match look s.infos k with
  | none => (s, .unknownKey, none)
  | some i =>
    if i.default.tag ≠ v.tag then (s, .wrongType, none)
    else if allowed e i v = false then (s, .notAllowed, none)
    else
      let changed := differs e s k v
      let r := A.save s.sto k v
      let s' := { s with vals := put s.vals k v, sto := r.1 }
      if r.2 then (s', .ok, if changed then some v else none) else (s', .storageError, none)

/-- `lib.rs:405-425` (`remove`) -/
def removeVal {σ : Type} (e : Ext) (A : Adapter σ) (s : Store σ) (k : Str) :
    Store σ × Res × Option Setting :=
  match look s.infos k with
  | none => (s, .unknownKey, none)
  | some i =>
    let r := A.erase s.sto k
    if r.2 then
      let changed := differs e s k i.default
      ({ s with vals := put s.vals k i.default, sto := r.1 }, .ok, if changed then some i.default else none)
    else ({ s with sto := r.1 }, .storageError, none)

/-- `lib.rs:458-464`: the subscriptions to call -/
def matching {σ : Type} (e : Ext) (s : Store σ) (k : Str) : List Nat :=
  (s.subs.filter fun b => e.wild b.2 k).map (·.1)

/-- `lib.rs:435-447` -/
def subscribe {σ : Type} (s : Store σ) (pat : Str) : Store σ :=
  { s with next := s.next + 1, subs := s.subs ++ [(s.next, pat)] }

/-- `lib.rs:450-454` -/
def unsubscribe {σ : Type} (s : Store σ) (id : Nat) : Store σ :=
  { s with subs := s.subs.filter fun b => decide (b.1 ≠ id) }

/-- `lib.rs:304-313`: in the iteration order of the adapter's answer -/
def setStorage {σ : Type} (A : Adapter σ) (s : Store σ) (sto : σ) : Store σ :=
  match A.all sto with
  | some l => { s with sto := sto, vals := l.foldl (fun m e => put m e.1 e.2) s.vals }
  | none => { s with sto := sto }

/-- `lib.rs:467-477` -/
def snapshot {σ : Type} (s : Store σ) : List (Info × Setting) :=
  s.keys.filterMap fun k =>
    match look s.infos k with
    | some i => some (i, (look s.vals k).getD i.default)
    | none => none

/-- `str::trim_end_matches('.')` -/
def trimDots (ns : Str) : Str := (ns.reverse.dropWhile (fun c => decide (c = '.'))).reverse

/-- `lib.rs:486-490` -/
def mergedKey (ns : Str) (k : Str) : Str := if ns = [] then k else ns ++ '.' :: k

/-- `lib.rs:485-502`, one entry; the number counts the merged entries -/
def absorbOne {σ : Type} (ns : Str) (acc : Store σ × Nat) (en : Info × Setting) : Store σ × Nat :=
  let k := mergedKey ns en.1.key
  if (look acc.1.infos k).isSome then acc
  else ({ acc.1 with vals := put acc.1.vals k en.2, keys := acc.1.keys ++ [k],
                     infos := put acc.1.infos k { en.1 with key := k } }, acc.2 + 1)

/-- `lib.rs:481-505` -/
def absorb {σ : Type} (s : Store σ) (entries : List (Info × Setting)) (ns : Str) : Store σ × Nat :=
  entries.foldl (absorbOne (trimDots ns)) (s, 0)

/-- the public calls; `merge` carries the snapshot of the other store (`lib.rs:107-113`) -/
inductive Op (σ : Type)
  | get (k : Str)
  | set (k : Str) (v : Setting)
  | remove (k : Str)
  | subscribe (pat : Str)
  | unsubscribe (id : Nat)
  | setStorage (sto : σ)
  | merge (entries : List (Info × Setting)) (ns : Str)

/-- a notification: subscription, key, value -/
abbrev Note := Nat × Str × Setting

/-- what one call leaves behind: its report, what `get` answered, the notifications it sent, the id
`subscribe` returned -/
structure Out where
  res : Res
  answer : Option (Option Setting)
  notes : List Note
  sub : Option Nat
  deriving DecidableEq

/-- `lib.rs:122-138`, `142-156`: the notifications for an announced value -/
def announce {σ : Type} (e : Ext) (s : Store σ) (k : Str) : Option Setting → List Note
  | some v => (matching e s k).map fun id => (id, k, v)
  | none => []

/-- One public call. -/
def step {σ : Type} (e : Ext) (A : Adapter σ) (s : Store σ) : Op σ → Store σ × Out
  | .get k => let r := read A s k; (r.2, ⟨.ok, r.1, [], none⟩)
  | .set k v => let r := setVal e A s k v; (r.1, ⟨r.2.1, none, announce e r.1 k r.2.2, none⟩)
  | .remove k => let r := removeVal e A s k; (r.1, ⟨r.2.1, none, announce e r.1 k r.2.2, none⟩)
  | .subscribe p => (Config.subscribe s p, ⟨.ok, none, [], some s.next⟩)
  | .unsubscribe id => (Config.unsubscribe s id, ⟨.ok, none, [], none⟩)
  | .setStorage sto => (Config.setStorage A s sto, ⟨.ok, none, [], none⟩)
  | .merge es ns => ((absorb s es ns).1, ⟨.ok, none, [], none⟩)

/-- A history of calls: the final store and what each call left. -/
def run {σ : Type} (e : Ext) (A : Adapter σ) (s : Store σ) : List (Op σ) → Store σ × List (Op σ × Out)
  | [] => (s, [])
  | o :: r =>
    let a := step e A s o
    let b := run e A a.1 r
    (b.1, (o, a.2) :: b.2)

/-! ## Adapters -/

/-- `storage/memory.rs:22-44` -/
def memory : Adapter (List (Str × Setting)) where
  load m k := some (look m k)
  save m k v := (put m k v, true)
  erase m k := (del m k, true)
  all m := some m

/-- `storage/sqlite.rs:34-82`: the table holds the text form; `bad` says whether the database refuses
statements (it then changes nothing).  `get` and `all` fail on a value that does not parse. -/
structure Sql where
  rows : List (Str × Str)
  bad : Bool
  deriving DecidableEq

/-- `storage/sqlite.rs:73-80` -/
def sqlAll (e : Ext) : List (Str × Str) → Option (List (Str × Setting))
  | [] => some []
  | (k, t) :: r => match Setting.parse e t, sqlAll e r with
    | some v, some l => some ((k, v) :: l)
    | _, _ => none

/-- `storage/sqlite.rs:34-82` -/
def sqlite (e : Ext) : Adapter Sql where
  load m k := if m.bad then none else match look m.rows k with
    | some t => match Setting.parse e t with
      | some v => some (some v)
      | none => none
    | none => some none
  save m k v := if m.bad then (m, false) else ({ m with rows := put m.rows k (v.display e) }, true)
  erase m k := if m.bad then (m, false) else ({ m with rows := del m.rows k }, true)
  all m := if m.bad then none else sqlAll e m.rows

/-- the outcome of writing the settings file (`storage/json.rs:94-99`) -/
inductive Fate
  /-- everything is written -/
  | fine
  /-- opening fails: nothing happens to the file -/
  | noOpen
  /-- truncated, then only the first `n` bytes are written before an error (or a crash) -/
  | short (n : Nat)
  deriving DecidableEq

/-- `storage/json.rs:13-16`: the elements in memory and the file; `fate` is what will happen to the next
write. -/
structure JsonFile where
  elements : List (Str × Setting)
  file : Str
  fate : Fate
  deriving DecidableEq

/-- `storage/json.rs:94-99`; `enc` is `serde_json::to_string_pretty` -/
def writeFile (enc : List (Str × Setting) → Str) (j : JsonFile) : JsonFile × Bool :=
  match j.fate with
  | .fine => ({ j with file := enc j.elements }, true)
  | .noOpen => (j, false)
  | .short n => ({ j with file := (enc j.elements).take n }, false)

/-- `storage/json.rs:43-65` -/
def json (enc : List (Str × Setting) → Str) : Adapter JsonFile where
  load j k := some (look j.elements k)
  save j k v := writeFile enc { j with elements := put j.elements k v }
  erase j k := writeFile enc { j with elements := del j.elements k }
  all j := some j.elements

end Verif.Config
