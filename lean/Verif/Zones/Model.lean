/-!
# Model of the engine's zones, tabs, tab services, I/O thread and storage reports

Source: `crates/gosub_engine/src/engine/engine.rs`, `engine/zone/zone.rs`,
`engine/tab/services.rs`, `engine/tab/worker.rs` (storage binding), `engine/storage/types.rs`,
`engine/cookies/store.rs` and `net/io_runtime.rs`.

Ids (`ZoneId`, `TabId`, both random UUIDs) are natural numbers, and the id a new zone or tab gets
is given with the operation: the generator is not modelled.  Hash maps are association lists, so
the order in which they are walked is fixed here and free in the code; no theorem depends on it.
Cookie stores, jars and storage services are named by numbers: what is modelled is which object a
tab gets, not what is inside (that is the subject of the areas Cookies, CookieStore and Storage).
-/

namespace Verif.Zones

/-- `HashMap::insert` on a map of which only the keys matter: a key already there is replaced.
Models `zones.insert` at engine.rs:310. -/
def put (ks : List Nat) (k : Nat) : List Nat := if k ∈ ks then ks else ks ++ [k]

/-- `HashMap::remove` on the keys. Models `zones.remove` at engine.rs:351. -/
def drop (ks : List Nat) (k : Nat) : List Nat := ks.filter (fun x => decide (x ≠ k))

/-- `HashMap::get`. -/
def look {α β : Type} [DecidableEq α] (m : List (α × β)) (k : α) : Option β :=
  match m with
  | [] => none
  | (k', x) :: m => if k' = k then some x else look m k

/-- `HashMap::remove`. -/
def erase {α β : Type} [DecidableEq α] (m : List (α × β)) (k : α) : List (α × β) :=
  m.filter (fun p => decide (p.1 ≠ k))

/-- `HashMap::insert`. -/
def insert {α β : Type} [DecidableEq α] (m : List (α × β)) (k : α) (x : β) : List (α × β) :=
  erase m k ++ [(k, x)]

/-- The errors of `EngineError` met here (engine.rs, zone.rs). -/
inductive Error where
  | alreadyRunning | notRunning | ioNotStarted | zoneLimit | internal
  | tabLimit | createTab | channelClosed
  deriving DecidableEq, Repr

/-! ## The engine -/

/-- Where the run-loop future of `GosubEngine::run` (engine.rs:204-219) is: still to be made
(`cmd_rx` is `Some`), handed out but not being polled with so many commands waiting in its
channel, being polled, or ended or dropped. -/
inductive Loop where
  | unmade
  | idle (waiting : Nat)
  | driven
  | gone
  deriving DecidableEq, Repr

/-- What the engine does to the rest of the world, in order. -/
inductive Effect where
  /-- `store.persist_all()`, engine.rs:259 -/
  | persist (store : Nat)
  /-- `spawn_io_thread`, engine.rs:150 -/
  | startIo
  /-- `io.shutdown()`, engine.rs:236 -/
  | stopIo
  /-- `zone.close()`, engine.rs:334 -/
  | closeTabs (zone : Nat)
  /-- `io.shutdown_zone(zone_id)`, engine.rs:339 -/
  | stopZoneIo (zone : Nat)
  /-- `store.release_zone(zone_id)`, engine.rs:348 -/
  | release (store zone : Nat)
  /-- the event `ZoneCreated`, engine.rs:317 -/
  | created (zone : Nat)
  /-- the event `ZoneClosed`, engine.rs:353 -/
  | closed (zone : Nat)
  deriving DecidableEq, Repr

/-- `GosubEngine` (engine.rs:25-50) with the parts of its context that decide anything here.
`listeners` is the number of receivers of the event channel; `io` is `io_handle.is_some()` and
`ioTx` is whether `context.io_tx` is set.  Rendering, fonts and the settings store are left out. -/
structure Engine where
  maxZones : Nat
  running : Bool
  loop : Loop
  io : Bool
  ioTx : Bool
  zones : List Nat
  stores : List (Nat × Nat)
  listeners : Nat
  done : List Effect
  deriving DecidableEq, Repr

/-- `GosubEngine::new` (engine.rs:102-134): the first receiver of the event channel is dropped. -/
def Engine.new (maxZones : Nat) : Engine :=
  ⟨maxZones, false, .unmade, false, false, [], [], 0, []⟩

/-- What a call is answered with; `waits` is a call that does not return by itself. -/
inductive Answer where
  | ok
  | nothing
  | created (zone : Nat)
  | failed (e : Error)
  | waits
  deriving DecidableEq, Repr

/-- `GosubEngine::run` (engine.rs:204-219): `running` is set before `cmd_rx` is taken. -/
def Engine.run (e : Engine) : Engine × Answer :=
  let e : Engine := { e with running := true }
  match e.loop with
  | .unmade => ({ e with loop := .idle 0 }, .ok)
  | _ => (e, .nothing)

/-- `GosubEngine::start` (engine.rs:143-163). The metrics server is left out. -/
def Engine.start (e : Engine) : Engine × Answer :=
  if e.running then (e, .failed .alreadyRunning)
  else
    match ({ e with io := true, ioTx := true, done := e.done ++ [.startIo] } : Engine).run with
    | (e, .ok) => (e, .ok)
    | (e, _) => (e, .failed .alreadyRunning)

/-- The caller begins to poll the run-loop future (engine.rs:211-218): with a command waiting it
answers that one and ends. -/
def Engine.drive (e : Engine) : Engine :=
  match e.loop with
  | .idle 0 => { e with loop := .driven }
  | .idle _ => { e with loop := .gone }
  | _ => e

/-- The caller drops the run-loop future, and with it the receiving end of the commands. -/
def Engine.dropLoop (e : Engine) : Engine :=
  match e.loop with
  | .unmade => e
  | _ => { e with loop := .gone }

/-- `DEFAULT_CHANNEL_CAPACITY` (engine.rs of the crate root module, `src/engine.rs:33`). -/
def capacity : Nat := 512

/-- `flush_persistence` (engine.rs:256-261). -/
def Engine.flush (e : Engine) : Engine :=
  { e with done := e.done ++ e.stores.map (fun p => Effect.persist p.2) }

/-- The end of `shutdown` (engine.rs:244-252): the command is put in the channel with `try_send`
and its answer awaited. A loop that is being polled answers and ends. One that is not polled
leaves the caller waiting, as long as the command fits in the channel. Without a receiver, or with
a full channel, the command and its reply channel are dropped, and awaiting that is an error. -/
def Engine.stopLoop (e : Engine) : Engine × Answer :=
  match e.loop with
  | .driven => ({ e with loop := .gone }, .ok)
  | .idle n => if n < capacity then ({ e with loop := .idle (n + 1) }, .waits) else (e, .failed .internal)
  | .unmade => (e, .waits)
  | .gone => (e, .failed .internal)

/-- `shutdown` (engine.rs:224-253). That the I/O thread is given only so many seconds to end is
left out. -/
def Engine.shutdown (e : Engine) : Engine × Answer :=
  if !e.running then (e, .failed .notRunning)
  else
    let e : Engine := e.flush
    let e : Engine := if e.io then { e with io := false, done := e.done ++ [.stopIo] } else e
    e.stopLoop

/-- `create_zone` (engine.rs:277-321) with `Zone::new_with_id` (zone.rs:189-254), of which only
the test for the I/O channel can fail. `id` is the id given by the caller or drawn. -/
def Engine.createZone (e : Engine) (id : Nat) (store : Option Nat) : Engine × Answer :=
  if e.zones.length ≥ e.maxZones then (e, .failed .zoneLimit)
  else if !e.ioTx then (e, .failed .ioNotStarted)
  else
    let e : Engine := { e with zones := put e.zones id }
    let e : Engine := match store with
      | some s => { e with stores := insert e.stores id s }
      | none => e
    if e.listeners = 0 then (e, .failed .internal)
    else ({ e with done := e.done ++ [.created id] }, .created id)

/-- `close_zone` (engine.rs:330-354). The time limits on the tabs and the fetcher are left out. -/
def Engine.closeZone (e : Engine) (id : Nat) : Engine × Answer :=
  let e : Engine := { e with done := e.done ++ [.closeTabs id] }
  let e : Engine := if e.io then { e with done := e.done ++ [.stopZoneIo id] } else e
  let e : Engine := match look e.stores id with
    | some s => { e with stores := erase e.stores id, done := e.done ++ [.release s id] }
    | none => e
  let e : Engine := { e with zones := drop e.zones id }
  if e.listeners = 0 then (e, .nothing)
  else ({ e with done := e.done ++ [.closed id] }, .nothing)

/-- The calls an embedder can make. `dropZone` is a `Zone` value going out of scope without
`close_zone` (zone.rs:422-435): it only writes a log line. -/
inductive Op where
  | start | run | drive | dropLoop
  | subscribe | unsubscribe
  | createZone (id : Nat) (store : Option Nat)
  | closeZone (id : Nat)
  | dropZone (id : Nat)
  | shutdown
  deriving DecidableEq, Repr

/-- One call. -/
def Engine.step (e : Engine) : Op → Engine × Answer
  | .start => e.start
  | .run => e.run
  | .drive => (e.drive, .nothing)
  | .dropLoop => (e.dropLoop, .nothing)
  | .subscribe => ({ e with listeners := e.listeners + 1 }, .nothing)
  | .unsubscribe => ({ e with listeners := e.listeners - 1 }, .nothing)
  | .createZone id store => e.createZone id store
  | .closeZone id => e.closeZone id
  | .dropZone _ => (e, .nothing)
  | .shutdown => e.shutdown

/-- The engine after a history of calls. -/
def Engine.after (e : Engine) (ops : List Op) : Engine := ops.foldl (fun e op => (e.step op).1) e

/-- The calls of a history with their answers. -/
def Engine.trace (e : Engine) : List Op → List (Op × Answer)
  | [] => []
  | op :: ops => (op, (e.step op).2) :: (e.step op).1.trace ops

/-! ## The tabs of a zone -/

/-- `Zone` (zone.rs:127-149) with the setting `engine.zone.max_tabs`. -/
structure Tabs where
  /-- `config.max_tabs` of the zone -/
  zoneMax : Nat
  /-- the setting `engine.zone.max_tabs` -/
  setting : Nat
  tabs : List Nat
  deriving DecidableEq, Repr

/-- `effective_max_tabs` (zone.rs:439-441). -/
def Tabs.limit (z : Tabs) : Nat := min z.setting z.zoneMax

/-- How far `create_tab` gets: `spawn_worker` fails, the worker is gone before it was told its
title and size, or all is well. -/
inductive Start where
  | unspawned | lost | fine
  deriving DecidableEq, Repr

inductive TabOp where
  | create (id : Nat) (s : Start)
  | close (id : Nat)
  /-- the worker of a tab ends by itself: `TabCommand::CloseTab` sent through a tab handle, or a
  panic (worker.rs:459-489, 544-567) -/
  | ends (id : Nat)
  | set (n : Nat)
  deriving DecidableEq, Repr

inductive TabAnswer where
  | tab (id : Nat)
  | failed (e : Error)
  | was (found : Bool)
  | nothing
  deriving DecidableEq, Repr

/-- `create_tab` (zone.rs:301-345). -/
def Tabs.create (z : Tabs) (id : Nat) (s : Start) : Tabs × TabAnswer :=
  if z.tabs.length ≥ z.limit then (z, .failed .tabLimit)
  else
    match s with
    | .unspawned => (z, .failed .createTab)
    | .lost => ({ z with tabs := put z.tabs id }, .failed .channelClosed)
    | .fine => ({ z with tabs := put z.tabs id }, .tab id)

/-- `close_tab` (zone.rs:373-391). Waiting for the worker is left out. -/
def Tabs.close (z : Tabs) (id : Nat) : Tabs × TabAnswer :=
  if id ∈ z.tabs then ({ z with tabs := drop z.tabs id }, .was true) else (z, .was false)

def Tabs.step (z : Tabs) : TabOp → Tabs × TabAnswer
  | .create id s => z.create id s
  | .close id => z.close id
  | .ends _ => (z, .nothing)
  | .set n => ({ z with setting := n }, .nothing)

def Tabs.after (z : Tabs) (ops : List TabOp) : Tabs := ops.foldl (fun z op => (z.step op).1) z

def Tabs.trace (z : Tabs) : List TabOp → List (TabOp × TabAnswer)
  | [] => []
  | op :: ops => (op, (z.step op).2) :: (z.step op).1.trace ops

/-- `list_tabs` (zone.rs:417-419). -/
def Tabs.list (z : Tabs) : List Nat := z.tabs

/-! ## What a tab gets to work with -/

/-- An object that was made by the caller, or the nth one made by the engine. -/
inductive Obj where
  | given (n : Nat)
  | made (n : Nat)
  deriving DecidableEq, Repr

/-- `TabCookieJar` and `TabStorageScope` (options.rs:68-96). -/
inductive Choice where
  | inherit
  | ephemeral
  | custom (n : Nat)
  deriving DecidableEq, Repr

/-- `PartitionPolicy` (storage/types.rs:38-45). -/
inductive Policy where
  | none | topLevel
  deriving DecidableEq, Repr

/-- `PartitionKey` (storage/types.rs:6-14); origins are numbers. -/
inductive Part where
  | none
  | topLevel (origin : Nat)
  | custom (s : List Char)
  deriving DecidableEq, Repr

/-- `ZoneServices` (zone.rs:79-89) and the languages of `ZoneConfig`. -/
structure Services where
  storage : Nat
  store : Option Nat
  jar : Option Nat
  policy : Policy
  languages : Option (List Char)
  deriving DecidableEq, Repr

/-- `TabOverrides` (options.rs:47-62). -/
structure Overrides where
  key : Option Part
  jar : Choice
  storage : Choice
  languages : Option (List Char)
  deriving DecidableEq, Repr

/-- `EffectiveTabServices` (services.rs:9-18), without the visited places; `key` is filled in and
read by nobody. -/
structure Tab where
  zone : Nat
  key : Option Part
  policy : Policy
  storage : Obj
  jar : Obj
  languages : Option (List Char)
  deriving DecidableEq, Repr

/-- The jars the stores hold (`jars` of the stores, `cookies/store.rs:180-211`, `in_memory.rs`)
and the number of jars and storage services the engine made. `ready s` is whether the store can hand out jars
(`store_self` is set): a parameter. -/
structure Depot where
  cache : List ((Nat × Nat) × Nat)
  nextJar : Nat
  nextStorage : Nat
  deriving DecidableEq, Repr

/-- `jar_for` (store.rs:180-211, in_memory.rs:29-42): the jar of the zone is made once and kept. -/
def Depot.jarFor (ready : Nat → Bool) (d : Depot) (s z : Nat) : Depot × Option Nat :=
  match look d.cache (s, z) with
  | some j => (d, some j)
  | none =>
    if ready s then
      ({ d with cache := insert d.cache (s, z) d.nextJar, nextJar := d.nextJar + 1 }, some d.nextJar)
    else (d, none)

/-- A new jar (`DefaultCookieJar::new().into()`, services.rs:56 and 58). -/
def Depot.freshJar (d : Depot) : Depot × Obj :=
  ({ d with nextJar := d.nextJar + 1 }, .made d.nextJar)

/-- A new storage service in memory (services.rs:43-46). -/
def Depot.freshStorage (d : Depot) : Depot × Obj :=
  ({ d with nextStorage := d.nextStorage + 1 }, .made d.nextStorage)

/-- The storage of a tab (services.rs:40-47). -/
def Depot.pickStorage (d : Depot) (sv : Services) (ov : Overrides) : Depot × Obj :=
  match ov.storage with
  | .inherit => (d, .given sv.storage)
  | .custom n => (d, .given n)
  | .ephemeral => d.freshStorage

/-- The cookie jar of a tab (services.rs:49-59). -/
def Depot.pickJar (ready : Nat → Bool) (d : Depot) (z : Nat) (sv : Services) (ov : Overrides) :
    Depot × Obj :=
  match ov.jar with
  | .custom n => (d, .given n)
  | .ephemeral => d.freshJar
  | .inherit =>
    match sv.jar with
    | some n => (d, .given n)
    | none =>
      match sv.store with
      | none => d.freshJar
      | some s =>
        match d.jarFor ready s z with
        | (d, some j) => (d, .made j)
        | (d, none) => d.freshJar

/-- `resolve_tab_services` (services.rs:21-76). -/
def Depot.resolve (ready : Nat → Bool) (d : Depot) (z : Nat) (sv : Services) (ov : Overrides) :
    Depot × Tab :=
  let policy := if ov.key.isSome then Policy.none else sv.policy
  let st := d.pickStorage sv ov
  let jr := st.1.pickJar ready z sv ov
  (jr.1, ⟨z, ov.key, policy, st.2, jr.2, ov.languages.orElse (fun _ => sv.languages)⟩)

/-- A tab is made, or a store lets go of the jar of a zone (`release_zone` at engine.rs:348). -/
inductive Use where
  | tab (zone : Nat) (sv : Services) (ov : Overrides)
  | release (store zone : Nat)
  deriving DecidableEq, Repr

/-- `release_zone` (in_memory.rs:51-53; `evict_and_snapshot`, store.rs:217-226). -/
def Depot.release (d : Depot) (s z : Nat) : Depot := { d with cache := erase d.cache (s, z) }

/-- The tabs a history makes, each at the place of its call. -/
def Depot.tabs (ready : Nat → Bool) (d : Depot) : List Use → List (Option Tab)
  | [] => []
  | .tab z sv ov :: us =>
    some (d.resolve ready z sv ov).2 :: (d.resolve ready z sv ov).1.tabs ready us
  | .release s z :: us => none :: (d.release s z).tabs ready us

/-- `compute_partition_key` (storage/types.rs:48-53). -/
def partitionKey (origin : Nat) : Policy → Part
  | .none => .none
  | .topLevel => .topLevel origin

/-- The local storage area a tab has on a page (`prepare_storage_for`, worker.rs:2122-2131): the
storage service, and in it zone, partition and origin. -/
def Tab.localArea (t : Tab) (origin : Nat) : Obj × Nat × Part × Nat :=
  (t.storage, t.zone, partitionKey origin t.policy, origin)

/-- The session storage area of tab number `id` on a page (worker.rs:2133-2137). -/
def Tab.sessionArea (t : Tab) (id origin : Nat) : Obj × Nat × Nat × Part × Nat :=
  (t.storage, t.zone, id, partitionKey origin t.policy, origin)

/-! ## The I/O thread -/

/-- `IoCommand`. A fetch carries whether `Fetcher::new` would succeed now: a parameter.  Requests
and acknowledgements are numbers. -/
inductive IoCmd where
  | fetch (zone req : Nat) (buildable : Bool)
  | decision (token : Nat)
  | shutdownZone (zone ack : Nat)
  deriving DecidableEq, Repr

inductive IoEvent where
  /-- `fetcher.submit` with the zone the fetcher was made for -/
  | submitted (req fetcher : Nat)
  /-- the request is dropped, and the other end of its reply channel sees that -/
  | dropped (req : Nat)
  | fulfilled (token : Nat)
  | acked (ack : Nat)
  | spawned (fetcher zone : Nat)
  | stopped (fetcher : Nat)
  deriving DecidableEq, Repr

/-- `IoRouter` (io_runtime.rs:85-95) and what has happened so far. -/
structure Router where
  zones : List (Nat × Nat)
  next : Nat
  log : List IoEvent
  deriving DecidableEq, Repr

/-- `get_or_spawn_zone_fetcher` (io_runtime.rs:107-139). -/
def Router.fetcher (r : Router) (z : Nat) (buildable : Bool) : Router × Option Nat :=
  match look r.zones z with
  | some f => (r, some f)
  | none =>
    if buildable then
      (⟨insert r.zones z r.next, r.next + 1, r.log ++ [.spawned r.next z]⟩, some r.next)
    else (r, none)

/-- `shutdown_zone` (io_runtime.rs:147-161): the fetcher is told to stop and awaited. -/
def Router.shutdownZone (r : Router) (z : Nat) : Router :=
  match look r.zones z with
  | some f => { r with zones := erase r.zones z, log := r.log ++ [.stopped f] }
  | none => r

/-- `shutdown_all` (io_runtime.rs:165-180). -/
def Router.shutdownAll (r : Router) : Router :=
  { r with zones := [], log := r.log ++ r.zones.map (fun p => IoEvent.stopped p.2) }

/-- One command of the loop (io_runtime.rs:231-250). -/
def Router.step (r : Router) : IoCmd → Router
  | .fetch z q b =>
    match r.fetcher z b with
    | (r, some f) => { r with log := r.log ++ [.submitted q f] }
    | (r, none) => { r with log := r.log ++ [.dropped q] }
  | .decision t => { r with log := r.log ++ [.fulfilled t] }
  | .shutdownZone z k =>
    let r := r.shutdownZone z
    { r with log := r.log ++ [.acked k] }

/-- A command that is still in the channel when the thread ends is dropped with it: the reply of
a fetch is seen as closed. -/
def leftover : IoCmd → List IoEvent
  | .fetch _ q _ => [.dropped q]
  | _ => []

/-- The I/O thread (`spawn_io_thread`, io_runtime.rs:216-264): it takes commands in order until it
is cancelled, here after `n` of them, and then stops all fetchers. -/
def ioThread (cmds : List IoCmd) (n : Nat) : Router :=
  let r := (cmds.take n).foldl Router.step ⟨[], 0, []⟩
  let r := r.shutdownAll
  { r with log := r.log ++ (cmds.drop n).flatMap leftover }

/-! ## Reports of storage changes -/

/-- `StorageEvent` as far as it matters: the zone it took place in and what it says. -/
structure Change where
  zone : Nat
  what : Nat
  deriving DecidableEq, Repr

/-- The task `storage-events-forwarder` of a zone (zone.rs:348-367) with its receiver of the
broadcast channel of a storage service: the changes it has not read yet, whether some were
overwritten before it read them, and whether the task has ended. -/
structure Forwarder where
  zone : Nat
  storage : Nat
  unread : List Change
  lagged : Bool
  ended : Bool
  deriving DecidableEq, Repr

/-- A change is sent to a receiver (`StorageBus::publish`, service.rs:32-36): the channel keeps
the last `capacity` changes, and a slower receiver loses the oldest. -/
def Forwarder.deliver (f : Forwarder) (c : Change) : Forwarder :=
  if f.unread.length < capacity then { f with unread := f.unread ++ [c] }
  else { f with unread := (f.unread ++ [c]).drop 1, lagged := true }

/-- The forwarder gets a turn: `recv` reports an overrun once, which ends the `while let Ok`
loop; otherwise the oldest change is passed on with the forwarder's own zone. -/
def Forwarder.turn (f : Forwarder) : Forwarder × List Change :=
  if f.ended then (f, [])
  else if f.lagged then ({ f with ended := true }, [])
  else
    match f.unread with
    | [] => (f, [])
    | c :: cs => ({ f with unread := cs }, [⟨f.zone, c.what⟩])

/-- The forwarders of all zones, and what the embedder was told. -/
structure Reports where
  tasks : List Forwarder
  told : List Change
  deriving DecidableEq, Repr

/-- A zone is made with a storage service; a change takes place in a storage service; the nth
forwarder gets a turn. -/
inductive Act where
  | zone (id storage : Nat)
  | change (storage : Nat) (c : Change)
  | turn (n : Nat)
  deriving DecidableEq, Repr

def Reports.step (r : Reports) : Act → Reports
  | .zone id s => { r with tasks := r.tasks ++ [⟨id, s, [], false, false⟩] }
  | .change s c =>
    { r with tasks := r.tasks.map (fun f => if f.storage = s then f.deliver c else f) }
  | .turn n =>
    match r.tasks[n]? with
    | none => r
    | some f => ⟨r.tasks.set n f.turn.1, r.told ++ f.turn.2⟩

def Reports.after (r : Reports) (as : List Act) : Reports := as.foldl Reports.step r

end Verif.Zones
