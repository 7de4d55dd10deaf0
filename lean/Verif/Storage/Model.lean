import Verif.Util
/-!
# Model of web storage (`crates/gosub_engine/src/engine/storage/`)

`types.rs`, `session/in_memory.rs`, `local/in_memory.rs`, `local/sqlite_store.rs`, `service.rs`.

Simplifications: zone and tab ids (UUIDs) are numbers; `HashMap`s are association lists; I/O errors of
SQLite and lagging broadcast receivers are not modelled (the event log is what a receiver that keeps up
sees).  One SQL statement is one atomic step; the table is a list of rows.
-/
namespace Verif.Storage

/-- `url::Host`, as it is printed -/
inductive Host where
  | name (s : Str)
  | v6 (addr : Str)
deriving DecidableEq, Repr

def Host.text : Host → Str
  | .name s => s
  | .v6 a => '[' :: (a ++ [']'])

/-- `url::Origin`: opaque origins compare by a private number -/
inductive Origin where
  | tuple (scheme : Str) (host : Host) (port : Nat)
  | opaq (n : Nat)
deriving DecidableEq, Repr

/-- `url::default_port` -/
def defaultPort (scheme : Str) : Option Nat :=
  if scheme = "http".toList ∨ scheme = "ws".toList then some 80
  else if scheme = "https".toList ∨ scheme = "wss".toList then some 443
  else if scheme = "ftp".toList then some 21
  else none

/-- `Origin::ascii_serialization` (crate `url`) -/
def Origin.ascii : Origin → Str
  | .opaq _ => "null".toList
  | .tuple s h p =>
    if defaultPort s = some p then s ++ "://".toList ++ h.text
    else s ++ "://".toList ++ h.text ++ ':' :: Nat.toDigits 10 p

/-- types.rs:6-14 `PartitionKey` -/
inductive Part where
  | none
  | topLevel (o : Origin)
  | custom (s : Str)
deriving DecidableEq, Repr

/-- session/in_memory.rs:32-36, local/sqlite_store.rs:53-57 -/
def Part.text : Part → Str
  | .none => []
  | .topLevel o => "top:".toList ++ o.ascii
  | .custom s => s

abbrev KV := List (Str × Str)

/-- `HashMap::get` -/
def lookup {α β : Type} [DecidableEq α] (m : List (α × β)) (k : α) : Option β :=
  match m with
  | [] => none
  | (a, v) :: r => if a = k then some v else lookup r k

/-- `HashMap::insert` -/
def insert {α β : Type} [DecidableEq α] (m : List (α × β)) (k : α) (x : β) : List (α × β) :=
  match m with
  | [] => [(k, x)]
  | (a, v) :: r => if a = k then (a, x) :: r else (a, v) :: insert r k x

/-- `HashMap::remove`, and `DELETE` -/
def erase {α β : Type} [DecidableEq α] (m : List (α × β)) (k : α) : List (α × β) :=
  m.filter (fun e => decide (e.1 ≠ k))

/-- `HashMap::get_mut` followed by a change -/
def modify {α β : Type} [DecidableEq α] (m : List (α × β)) (k : α) (f : β → β) : List (α × β) :=
  match m with
  | [] => []
  | (a, v) :: r => if a = k then (a, f v) :: r else (a, v) :: modify r k f

/-- session/in_memory.rs:11 -/
abbrev SKey := Nat × Nat × Str × Str

/-- primary key of `local_storage`, sqlite_store.rs:33: zone, partition, origin; then the item key -/
abbrev RowKey := (Nat × Str × Str) × Str

/-- `Arc<dyn StorageArea>`: which object an area handle talks to -/
inductive Inner where
  | mem (idx : Nat)
  | sql (zone : Nat) (part origin : Str)
  | sess (key : SKey)
deriving DecidableEq, Repr

/-- what an area was asked for -/
inductive Ident where
  | loc (zone : Nat) (part : Part) (origin : Origin)
  | ses (zone tab : Nat) (part : Part) (origin : Origin)
deriving DecidableEq, Repr

/-- event.rs:12-23 `StorageEvent`; scope and source tab are part of `ident` -/
structure Event where
  ident : Ident
  key : Option Str
  old : Option Str
  new : Option Str
deriving DecidableEq, Repr

/-- a `NotifyingArea`, service.rs:112-120 -/
structure Area where
  ident : Ident
  inner : Inner
deriving DecidableEq, Repr

/-- `StorageService` with both local stores; `useSql` says which one was configured. -/
structure St where
  useSql : Bool
  areas : List ((Nat × Part × Origin) × Nat)
  maps : List KV
  rows : List (RowKey × Str)
  sess : List (SKey × KV)
  handles : List Area
  events : List Event
deriving Repr

/-- a fresh service, on the rows an earlier session left in the database -/
def init (useSql : Bool) (rows : List (RowKey × Str)) : St :=
  { useSql, areas := [], maps := [], rows, sess := [], handles := [], events := [] }

/-! ## The areas -/

/-- `get_item`: local/in_memory.rs:41, sqlite_store.rs:77, session/in_memory.rs:63 -/
def innerGet (st : St) (a : Inner) (k : Str) : Option Str :=
  match a with
  | .mem i => (st.maps[i]?).bind (fun m => lookup m k)
  | .sql z p o => lookup st.rows ((z, p, o), k)
  | .sess sk => (lookup st.sess sk).bind (fun m => lookup m k)

/-- `set_item`: local/in_memory.rs:45, sqlite_store.rs:87, session/in_memory.rs:67 -/
def innerSet (st : St) (a : Inner) (k v : Str) : St :=
  match a with
  | .mem i => { st with maps := st.maps.modify i (fun m => insert m k v) }
  | .sql z p o => { st with rows := insert st.rows ((z, p, o), k) v }
  | .sess sk => { st with sess := modify st.sess sk (fun m => insert m k v) }

/-- `remove_item`: local/in_memory.rs:50, sqlite_store.rs:98, session/in_memory.rs:77 -/
def innerRemove (st : St) (a : Inner) (k : Str) : St :=
  match a with
  | .mem i => { st with maps := st.maps.modify i (fun m => erase m k) }
  | .sql z p o => { st with rows := erase st.rows ((z, p, o), k) }
  | .sess sk => { st with sess := modify st.sess sk (fun m => erase m k) }

/-- `clear`: local/in_memory.rs:55, sqlite_store.rs:107, session/in_memory.rs:82 -/
def innerClear (st : St) (a : Inner) : St :=
  match a with
  | .mem i => { st with maps := st.maps.modify i (fun _ => []) }
  | .sql z p o => { st with rows := st.rows.filter (fun r => decide (r.1.1 ≠ (z, p, o))) }
  | .sess sk => { st with sess := modify st.sess sk (fun _ => []) }

/-- `keys`: local/in_memory.rs:64, sqlite_store.rs:129, session/in_memory.rs:94 (order not modelled) -/
def innerKeys (st : St) (a : Inner) : List Str :=
  match a with
  | .mem i => ((st.maps[i]?).getD []).map (·.1)
  | .sql z p o => (st.rows.filter (fun r => decide (r.1.1 = (z, p, o)))).map (·.1.2)
  | .sess sk => ((lookup st.sess sk).getD []).map (·.1)

/-- `len`: local/in_memory.rs:60, sqlite_store.rs:116, session/in_memory.rs:90 -/
def innerLen (st : St) (a : Inner) : Nat :=
  match a with
  | .mem i => ((st.maps[i]?).map List.length).getD 0
  | .sql z p o => (st.rows.filter (fun r => decide (r.1.1 = (z, p, o)))).length
  | .sess sk => ((lookup st.sess sk).map List.length).getD 0

/-! ## The service -/

/-- service.rs:64-67 `local_for` with local/in_memory.rs:25-32 or sqlite_store.rs:49-60 -/
def localFor (st : St) (z : Nat) (p : Part) (o : Origin) : St :=
  if st.useSql = true then
    { st with handles := st.handles ++ [⟨.loc z p o, .sql z p.text o.ascii⟩] }
  else
    match lookup st.areas (z, p, o) with
    | some i => { st with handles := st.handles ++ [⟨.loc z p o, .mem i⟩] }
    | none =>
      { st with
        areas := st.areas ++ [((z, p, o), st.maps.length)]
        maps := st.maps ++ [[]]
        handles := st.handles ++ [⟨.loc z p o, .mem st.maps.length⟩] }

/-- session/in_memory.rs:28-38 -/
def sessKey (z t : Nat) (p : Part) (o : Origin) : SKey := (z, t, p.text, o.ascii)

/-- service.rs:69-85 `session_for` with session/in_memory.rs:28-49 -/
def sessionFor (st : St) (z t : Nat) (p : Part) (o : Origin) : St :=
  let sk := sessKey z t p o
  let sess := match lookup st.sess sk with
    | some _ => st.sess
    | none => st.sess ++ [(sk, [])]
  { st with sess := sess, handles := st.handles ++ [⟨.ses z t p o, .sess sk⟩] }

/-- service.rs:87-89 with session/in_memory.rs:51-54 -/
def dropTab (st : St) (z t : Nat) : St :=
  { st with sess := st.sess.filter (fun e => decide (e.1.1 ≠ z ∨ e.1.2.1 ≠ t)) }

def publish (st : St) (e : Event) : St := { st with events := st.events ++ [e] }

/-- service.rs:126-140 -/
def areaSet (st : St) (a : Area) (k v : Str) : St :=
  publish (innerSet st a.inner k v) ⟨a.ident, some k, innerGet st a.inner k, some v⟩

/-- service.rs:141-155 -/
def areaRemove (st : St) (a : Area) (k : Str) : St :=
  publish (innerRemove st a.inner k) ⟨a.ident, some k, innerGet st a.inner k, none⟩

/-- service.rs:156-169 -/
def areaClear (st : St) (a : Area) : St :=
  publish (innerClear st a.inner) ⟨a.ident, none, none, none⟩

/-- calls, in the order they happen; areas are named by the position in which they were obtained -/
inductive Op where
  | localFor (z : Nat) (p : Part) (o : Origin)
  | sessionFor (z t : Nat) (p : Part) (o : Origin)
  | dropTab (z t : Nat)
  | set (h : Nat) (k v : Str)
  | remove (h : Nat) (k : Str)
  | clear (h : Nat)
deriving DecidableEq, Repr

def withArea (st : St) (h : Nat) (f : Area → St) : St :=
  match st.handles[h]? with
  | none => st
  | some a => f a

def step (st : St) : Op → St
  | .localFor z p o => localFor st z p o
  | .sessionFor z t p o => sessionFor st z t p o
  | .dropTab z t => dropTab st z t
  | .set h k v => withArea st h (fun a => areaSet st a k v)
  | .remove h k => withArea st h (fun a => areaRemove st a k)
  | .clear h => withArea st h (fun a => areaClear st a)

def run (st : St) (ops : List Op) : St := ops.foldl step st

/-- what a page reads through its area number `h` -/
def getItem (st : St) (h : Nat) (k : Str) : Option Str := (st.handles[h]?).bind (fun a => innerGet st a.inner k)
def keys (st : St) (h : Nat) : List Str := ((st.handles[h]?).map (fun a => innerKeys st a.inner)).getD []
def len (st : St) (h : Nat) : Nat := ((st.handles[h]?).map (fun a => innerLen st a.inner)).getD 0

/-! ## `set_item` under concurrency: read the old value, write, publish are three steps -/

inductive Pc where
  | idle
  | write (h : Nat) (k v : Str) (old : Option Str)
  | publish (h : Nat) (k v : Str) (old : Option Str)
deriving DecidableEq, Repr

structure Conc where
  st : St
  threads : List Pc

/-- thread `t` starts a `set_item`, or runs on -/
inductive Label where
  | start (t h : Nat) (k v : Str)
  | run (t : Nat)

def cstep (c : Conc) : Label → Conc
  | .start t h k v => { c with threads := c.threads.set t (.write h k v (getItem c.st h k)) }
  | .run t => match c.threads[t]? with
    | some (.write h k v old) =>
      { st := withArea c.st h (fun a => innerSet c.st a.inner k v), threads := c.threads.set t (.publish h k v old) }
    | some (.publish h k v old) =>
      { st := withArea c.st h (fun a => publish c.st ⟨a.ident, some k, old, some v⟩), threads := c.threads.set t .idle }
    | _ => c

def crun (c : Conc) (ls : List Label) : Conc := ls.foldl cstep c

end Verif.Storage
