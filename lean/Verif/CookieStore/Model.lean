import Verif.Cookies.Model
/-!
# Model of the cookie stores

`crates/gosub_engine/src/engine/cookies/store.rs`, `store/json.rs`, `store/sqlite.rs` and
`persistent_cookie_jar.rs`.

Externals:
* `serde_json`: a `Codec` whose `decode` undoes `encode` (nothing is assumed about other byte strings);
* POSIX files: directory entries pointing to inodes, `open(O_CREAT|O_TRUNC)`, `write` at an offset,
  atomic `rename`.  A process crash keeps whatever the completed calls wrote (no power failure);
* SQLite: a table of rows, transactions are atomic, the primary key is enforced with NULLs distinct.

The jar is a parameter `J` in the JSON part: the store never looks inside it.
-/
namespace Verif.CookieStore

abbrev Bytes := List UInt8

/-! ## Files -/

/-- The two names `path` and `path.with_extension("json.tmp")`, and the inodes they point to. -/
structure Fs where
  inodes : List Bytes
  file : Option Nat
  tmp : Option Nat
deriving DecidableEq, Repr

/-- `fs::read_to_string(&self.path)` -/
def Fs.read (fs : Fs) : Option Bytes := fs.file.bind (fun i => fs.inodes[i]?)

/-- `open(tmp, O_CREAT | O_TRUNC)`, the first system call of `fs::write` -/
def Fs.openTrunc (fs : Fs) : Fs × Nat :=
  match fs.tmp with
  | some i => ({ fs with inodes := fs.inodes.set i [] }, i)
  | none => ({ fs with inodes := fs.inodes ++ [[]], tmp := some fs.inodes.length }, fs.inodes.length)

/-- bytes of a file after writing `bs` at offset `off` -/
def overwrite (d : Bytes) (off : Nat) (bs : Bytes) : Bytes :=
  d.take off ++ List.replicate (off - d.length) 0 ++ bs ++ d.drop (off + bs.length)

/-- `write(fd, bs)` on an open descriptor at offset `off` -/
def Fs.writeAt (fs : Fs) (ino off : Nat) (bs : Bytes) : Fs :=
  { fs with inodes := fs.inodes.modify ino (fun d => overwrite d off bs) }

/-- `fs::rename(&tmp, &self.path)`: nothing happens if `tmp` does not exist -/
def Fs.rename (fs : Fs) : Fs :=
  match fs.tmp with
  | some i => { fs with file := some i, tmp := none }
  | none => fs

/-- progress of `save_file` -/
inductive SavePc where
  | opn
  | wr (ino off : Nat)
  | done
deriving DecidableEq, Repr

/-- One system call of `save_file`, json.rs:120-127: open, then writes of at least one byte each until
everything is written, then rename.  `n` is chosen by the operating system. -/
def saveStep (c : Bytes) (n : Nat) : Fs × SavePc → Fs × SavePc
  | (fs, .opn) => (fs.openTrunc.1, .wr fs.openTrunc.2 0)
  | (fs, .wr i off) =>
    if off < c.length then
      let chunk := (c.drop off).take (n + 1)
      (fs.writeAt i off chunk, .wr i (off + chunk.length))
    else (fs.rename, .done)
  | (fs, .done) => (fs, .done)

/-- `save_file` run to completion with one `write` call -/
def saveAll (fs : Fs) (c : Bytes) : Fs :=
  let s := saveStep c c.length (saveStep c c.length (fs, .opn))
  (if c = [] then s else saveStep c c.length s).1

/-! ## The JSON store, calls executed one at a time -/

/-- `serde_json` for `CookieStoreFile`, json.rs:42-45 -/
structure Codec (J : Type) where
  encode : List (Nat × J) → Bytes
  decode : Bytes → Option (List (Nat × J))

/-- `HashMap::get` -/
def get {α : Type} (m : List (Nat × α)) (k : Nat) : Option α :=
  match m with
  | [] => none
  | (a, v) :: r => if a = k then some v else get r k

/-- `HashMap::insert` -/
def insert {α : Type} (m : List (Nat × α)) (k : Nat) (x : α) : List (Nat × α) :=
  match m with
  | [] => [(k, x)]
  | (a, v) :: r => if a = k then (a, x) :: r else (a, v) :: insert r k x

/-- `HashMap::remove` -/
def erase {α : Type} (m : List (Nat × α)) (k : Nat) : List (Nat × α) :=
  match m with
  | [] => []
  | (a, v) :: r => if a = k then erase r k else (a, v) :: erase r k

/-- The store and the jars handed out: `handles[h]` is the zone and the inner jar of handle `h`. -/
structure Store (J : Type) where
  fs : Fs
  cache : List (Nat × Nat)
  handles : List (Nat × J)
deriving DecidableEq, Repr

variable {J : Type}

/-- json.rs:93-106 `load_file`: unreadable or unparsable files count as empty -/
def loadFile (cd : Codec J) (fs : Fs) : List (Nat × J) :=
  match fs.read with
  | none => []
  | some b => (cd.decode b).getD []

/-- json.rs:153-157 `persist_zone_from_snapshot` -/
def persistZone (cd : Codec J) (fs : Fs) (z : Nat) (j : J) : Fs :=
  saveAll fs (cd.encode (insert (loadFile cd fs) z j))

/-- json.rs:69-87 `new`: an absent file is created (directly, without the temporary file) -/
def openStore (cd : Codec J) (fs : Fs) : Store J :=
  { fs := match fs.file with
      | some _ => fs
      | none => { fs with inodes := fs.inodes ++ [cd.encode []], file := some fs.inodes.length }
    cache := [], handles := [] }

/-- json.rs:143-147 `jar_for` with store.rs:180-211, run without interference -/
def jarFor (cd : Codec J) (dflt : J) (s : Store J) (z : Nat) : Store J × Nat :=
  match get s.cache z with
  | some h => (s, h)
  | none =>
    let j := (get (loadFile cd s.fs) z).getD dflt
    ({ s with handles := s.handles ++ [(z, j)], cache := insert s.cache z s.handles.length },
      s.handles.length)

/-- persistent_cookie_jar.rs:56-93: change the inner jar, then persist it -/
def mutate (cd : Codec J) (s : Store J) (h : Nat) (f : J → J) : Store J :=
  match s.handles[h]? with
  | none => s
  | some (z, j) =>
    { s with handles := s.handles.set h (z, f j), fs := persistZone cd s.fs z (f j) }

/-- json.rs:160-164 `release_zone` with store.rs:217-226 -/
def release (cd : Codec J) (s : Store J) (z : Nat) : Store J :=
  match get s.cache z with
  | none => s
  | some h =>
    match s.handles[h]? with
    | none => { s with cache := erase s.cache z }
    | some (_, j) => { s with cache := erase s.cache z, fs := persistZone cd s.fs z j }

/-- json.rs:167-173 `remove_zone` -/
def removeZone (cd : Codec J) (s : Store J) (z : Nat) : Store J :=
  { s with cache := erase s.cache z, fs := saveAll s.fs (cd.encode (erase (loadFile cd s.fs) z)) }

/-- json.rs:179-188 `persist_all` with store.rs:233-248 -/
def persistAll (cd : Codec J) (s : Store J) : Store J :=
  let zones := s.cache.foldl (fun m e =>
    match s.handles[e.2]? with
    | none => m
    | some (_, j) => insert m e.1 j) (loadFile cd s.fs)
  { s with fs := saveAll s.fs (cd.encode zones) }

/-- The process ends (normally or not, between calls) and the store is opened again. -/
def restart (cd : Codec J) (s : Store J) : Store J := openStore cd s.fs

inductive Op (J : Type) where
  | jarFor (z : Nat)
  | mutate (h : Nat) (f : J → J)
  | release (z : Nat)
  | remove (z : Nat)
  | persistAll
  | restart

def step (cd : Codec J) (dflt : J) (s : Store J) : Op J → Store J
  | .jarFor z => (jarFor cd dflt s z).1
  | .mutate h f => mutate cd s h f
  | .release z => release cd s z
  | .remove z => removeZone cd s z
  | .persistAll => persistAll cd s
  | .restart => restart cd s

def run (cd : Codec J) (dflt : J) (s : Store J) (ops : List (Op J)) : Store J :=
  ops.foldl (step cd dflt) s

/-! ## The JSON store under concurrency

Every system call and every critical section is one step.  `persist_all` is not included here (it
holds the map's read lock for its whole duration). -/

/-- Where a thread is. `lk` is the handle whose write lock it holds. -/
inductive Pc (J : Type) where
  | idle
  /-- store.rs:186 before the read-locked lookup -/
  | look1 (z : Nat)
  /-- store.rs:190 missed, before `load()` -/
  | look2 (z : Nat)
  /-- store.rs:205 loaded, before the write lock -/
  | look3 (z : Nat) (j : J)
  /-- `jar_for` returned this handle -/
  | got (z h : Nat)
  /-- persistent_cookie_jar.rs:57 before taking the handle's lock -/
  | mut1 (h : Nat) (f : J → J)
  /-- json.rs:154 before `load_file` -/
  | pers (lk : Option Nat) (z : Nat) (j : J)
  /-- inside `save_file` -/
  | saving (lk : Option Nat) (contents : Bytes) (pc : SavePc)
  /-- store.rs:221 before the eviction -/
  | rel1 (z : Nat)
  /-- store.rs:222 evicted, before reading the jar -/
  | rel2 (z h : Nat)
  /-- json.rs:168 -/
  | rem1 (z : Nat)
  /-- json.rs:170 -/
  | rem2 (z : Nat)

structure Machine (J : Type) where
  fs : Fs
  cache : List (Nat × Nat)
  handles : List (Nat × J)
  locked : List Nat
  threads : List (Pc J)

/-- a thread takes one step, or starts a call -/
inductive Label (J : Type) where
  | run (t n : Nat)
  | start (t : Nat) (op : Op J)

/-- first program point of a call -/
def startPc : Op J → Pc J
  | .jarFor z => .look1 z
  | .mutate h f => .mut1 h f
  | .release z => .rel1 z
  | .remove z => .rem1 z
  | _ => .idle

/-- One step of thread `t` standing at `pc`; blocked threads do not move. -/
def stepPc (cd : Codec J) (dflt : J) (m : Machine J) (t n : Nat) (pc : Pc J) : Machine J :=
  let goto (m : Machine J) (pc : Pc J) : Machine J := { m with threads := m.threads.set t pc }
  match pc with
  | .idle => m
  | .got _ _ => m
  | .look1 z => match get m.cache z with
    | some h => goto m (.got z h)
    | none => goto m (.look2 z)
  | .look2 z => goto m (.look3 z ((get (loadFile cd m.fs) z).getD dflt))
  | .look3 z j => match get m.cache z with
    | some h => goto m (.got z h)
    | none => goto { m with handles := m.handles ++ [(z, j)], cache := insert m.cache z m.handles.length }
        (.got z m.handles.length)
  | .mut1 h f => match m.handles[h]? with
    | none => m
    | some (z, j) =>
      if h ∈ m.locked then m
      else goto { m with handles := m.handles.set h (z, f j), locked := h :: m.locked }
        (.pers (some h) z (f j))
  | .pers lk z j => goto m (.saving lk (cd.encode (insert (loadFile cd m.fs) z j)) .opn)
  | .saving lk _ .done =>
    goto { m with locked := match lk with | some h => m.locked.erase h | none => m.locked } .idle
  | .saving lk c spc =>
    let r := saveStep c n (m.fs, spc)
    goto { m with fs := r.1 } (.saving lk c r.2)
  | .rel1 z => match get m.cache z with
    | none => goto m .idle
    | some h => goto { m with cache := erase m.cache z } (.rel2 z h)
  | .rel2 z h => match m.handles[h]? with
    | none => goto m .idle
    | some (_, j) => if h ∈ m.locked then m else goto m (.pers none z j)
  | .rem1 z => goto { m with cache := erase m.cache z } (.rem2 z)
  | .rem2 z => goto m (.saving none (cd.encode (erase (loadFile cd m.fs) z)) .opn)

def mstep (cd : Codec J) (dflt : J) (m : Machine J) : Label J → Machine J
  | .run t n => match m.threads[t]? with
    | none => m
    | some pc => stepPc cd dflt m t n pc
  | .start t op => match m.threads[t]? with
    | some .idle => { m with threads := m.threads.set t (startPc op) }
    | some (.got _ _) => { m with threads := m.threads.set t (startPc op) }
    | _ => m

def mrun (cd : Codec J) (dflt : J) (m : Machine J) (ls : List (Label J)) : Machine J :=
  ls.foldl (mstep cd dflt) m

/-! ## The SQLite store -/

open Verif.Cookies (Cookie Origin Jar)

/-- a row of table `cookies`, sqlite.rs:87-100 -/
structure Row where
  zone : Nat
  origin : Origin
  cookie : Cookie
deriving DecidableEq, Repr

/-- `PRIMARY KEY (zone_id, origin, name, path, domain)`: rows with a NULL never conflict -/
def keyConflict (a b : Row) : Bool :=
  decide (a.zone = b.zone ∧ a.origin = b.origin ∧ a.cookie.name = b.cookie.name ∧
    a.cookie.path = b.cookie.path ∧ a.cookie.domain = b.cookie.domain ∧
    a.cookie.path.isSome ∧ a.cookie.domain.isSome)

/-- the INSERT loop, sqlite.rs:217-236; `none` = constraint violation, the transaction is rolled back -/
def insertRows (db : List Row) : List Row → Option (List Row)
  | [] => some db
  | r :: rs => if db.any (fun x => keyConflict x r) then none else insertRows (db ++ [r]) rs

/-- the rows of a jar -/
def rowsOf (z : Nat) (jar : Jar) : List Row :=
  jar.entries.flatMap (fun e => e.2.map (fun c => ⟨z, e.1, c⟩))

/-- sqlite.rs:188-242 `save_zone`: DELETE + INSERTs in one transaction -/
def saveZone (db : List Row) (z : Nat) (jar : Jar) : List Row :=
  match insertRows (db.filter (fun r => decide (r.zone ≠ z))) (rowsOf z jar) with
  | some db' => db'
  | none => db

/-- one row of the result set, sqlite.rs:175-177 -/
def pushRow (es : List (Origin × List Cookie)) (r : Row) : List (Origin × List Cookie) :=
  Verif.Cookies.setBucket es r.origin (Verif.Cookies.bucketOf es r.origin ++ [r.cookie])

/-- sqlite.rs:136-182 `load_zone`; `rows` is the result of the SELECT, in whatever order the database
returns it.  The jar starts with the default policy. -/
def loadRows (rows : List Row) (now : Int) : Jar :=
  Verif.Cookies.purgeExpired
    { entries := rows.foldl pushRow [], policy := .allow } now

/-- sqlite.rs:245-252 -/
def removeZoneFromDb (db : List Row) (z : Nat) : List Row := db.filter (fun r => decide (r.zone ≠ z))

end Verif.CookieStore
