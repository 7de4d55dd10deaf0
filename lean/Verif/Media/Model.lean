/-!
# Model: the store of images

Models `MediaStore` (/repo/crates/gosub_render_pipeline/src/common/media/media_store.rs): requests for
images from any number of threads, the background threads that fetch them, and the other two ways to put
media into the store. A step is one access to a lock or an atomic, so all schedules of these accesses are
runs of the model.

Simplifications: memory is sequentially consistent (the flag is `Relaxed` in the code); the cache is keyed
by the text that the code hashes with SHA-256, so texts with the same hash are not modelled; fetching and
decoding are one step with an arbitrary result; `update_svg` is not used in the repository and left out.
-/

namespace Verif.Media

/-- The text whose hash is the key: the source of an image, the data of an inline image, or the text
`svg-tile:…` that stands for a size of an SVG. -/
abbrev Key := List Char

/-- `Media` (media.rs): the source and the picture, which is opaque here. -/
abbrev Pic := Key × Nat

/-- Where a thread is. -/
inductive Pc where
  /-- `request_media` before it reads the cache (media_store.rs:102) -/
  | req (k : Key)
  /-- `request_media` before it registers as in flight (media_store.rs:107) -/
  | miss (k : Key)
  /-- `request_media` before it starts the thread (media_store.rs:113) -/
  | own (k : Key)
  /-- `request_media` after the thread could not be started (media_store.rs:121-124) -/
  | noSpawn (k : Key)
  /-- `load_media` in the background before it reads the cache (media_store.rs:148) -/
  | load (k : Key)
  /-- before the source is fetched and decoded (media_store.rs:155, 226-236) -/
  | fetch (k : Key)
  /-- before the placeholder is cached (media_store.rs:163-165) -/
  | failed (k : Key)
  /-- before an id is taken (media_store.rs:238) -/
  | alloc (k : Key) (p : Nat)
  /-- before the picture is entered (media_store.rs:239) -/
  | entry (k : Key) (id : Nat) (p : Nat)
  /-- before the id is cached (media_store.rs:170-172) -/
  | store (k : Key) (id : Nat)
  /-- before the mark of being in flight is removed (media_store.rs:117) -/
  | drop (k : Key)
  /-- before the flag is raised (media_store.rs:118) -/
  | signal (k : Key)
  /-- `load_media_from_data` and `svg_raster_tile` before they read the cache (media_store.rs:180, 210) -/
  | other (k : Key) (p : Pic)
  /-- the same before an id is taken (media_store.rs:198, 218) -/
  | otherAlloc (k : Key) (p : Pic)
  /-- the same before the picture is entered (media_store.rs:199, 219-221) -/
  | otherEntry (k : Key) (id : Nat) (p : Pic)
  /-- the same before the id is cached (media_store.rs:200, 222) -/
  | otherStore (k : Key) (id : Nat)
  | done
deriving DecidableEq

/-- What can be observed, in the order in which it happens. -/
inductive Event where
  /-- a request did not find its source in the cache -/
  | missed (k : Key)
  /-- a request was answered: with an id, or with `Pending` -/
  | answered (k : Key) (r : Option Nat)
  /-- a source was fetched and decoded, `none` if that failed -/
  | fetched (k : Key) (r : Option Nat)
  /-- the cache was given an id for the key -/
  | stored (k : Key)
  /-- a thread could not be started -/
  | noThread (k : Key)
  /-- the engine asked whether a fetch has landed -/
  | taken (b : Bool)
  /-- `load_media_from_data` or `svg_raster_tile` returned -/
  | gave (k : Key) (id : Nat)
deriving DecidableEq

/-- `MediaStore` (media_store.rs:29-44), and the threads. -/
structure St where
  entries : Nat → Option Pic
  cache : Key → Option Nat
  pending : Key → Bool
  completed : Bool
  next : Nat
  threads : List Pc
  log : List Event

/-- `DEFAULT_IMAGE_ID` (media_store.rs:13). -/
def placeholder : Nat := 1

/-- `new` (media_store.rs:57-93). -/
def start : St where
  entries := fun i =>
    if i = 0 then some ("gosub://default/svg".toList, 0)
    else if i = 1 then some ("gosub://default/image".toList, 0) else none
  cache := fun _ => none
  pending := fun _ => false
  completed := false
  next := 100
  threads := []
  log := []

def put {α β : Type} [DecidableEq α] (f : α → β) (a : α) (b : β) : α → β := fun x => if x = a then b else f x

/-- `entry(h).or_insert(id)` -/
def orInsert (c : Key → Option Nat) (k : Key) (id : Nat) : Key → Option Nat :=
  fun x => if x = k then some ((c k).getD id) else c x

def St.go (s : St) (i : Nat) (pc : Pc) : St := { s with threads := s.threads.set i pc }

def St.say (s : St) (e : Event) : St := { s with log := s.log ++ [e] }

/-- The next step of thread `i`, which is at `pc`. `r` is the result of a fetch, `ok` whether a thread
can be started. (media_store.rs:99-128, 146-175, 177-242) -/
def St.move (s : St) (i : Nat) (r : Option Nat) (ok : Bool) : Pc → St
  | .req k =>
    match s.cache k with
    | some id => (s.go i .done).say (.answered k (some id))
    | none => (s.go i (.miss k)).say (.missed k)
  | .miss k =>
    if s.pending k then (s.go i .done).say (.answered k none)
    else { s.go i (.own k) with pending := put s.pending k true }
  | .own k =>
    if ok then
      { (s.go i .done).say (.answered k none) with threads := s.threads.set i .done ++ [.load k] }
    else (s.go i (.noSpawn k)).say (.noThread k)
  | .noSpawn k => { (s.go i .done).say (.answered k none) with pending := put s.pending k false }
  | .load k =>
    match s.cache k with
    | some _ => s.go i (.drop k)
    | none => s.go i (.fetch k)
  | .fetch k =>
    match r with
    | none => (s.go i (.failed k)).say (.fetched k none)
    | some p => (s.go i (.alloc k p)).say (.fetched k (some p))
  | .failed k => { (s.go i (.drop k)).say (.stored k) with cache := orInsert s.cache k placeholder }
  | .alloc k p => { s.go i (.entry k s.next p) with next := s.next + 1 }
  | .entry k id p => { s.go i (.store k id) with entries := put s.entries id (some (k, p)) }
  | .store k id => { (s.go i (.drop k)).say (.stored k) with cache := orInsert s.cache k id }
  | .drop k => { s.go i (.signal k) with pending := put s.pending k false }
  | .signal _ => { s.go i .done with completed := true }
  | .other k p =>
    match s.cache k with
    | some id => (s.go i .done).say (.gave k id)
    | none => s.go i (.otherAlloc k p)
  | .otherAlloc k p => { s.go i (.otherEntry k s.next p) with next := s.next + 1 }
  | .otherEntry k id p => { s.go i (.otherStore k id) with entries := put s.entries id (some p) }
  | .otherStore k id => { (s.go i .done).say (.gave k id) with cache := put s.cache k (some id) }
  | .done => s

/-- What can happen next. -/
inductive Act where
  /-- `request_media` is called (media_store.rs:99) -/
  | request (k : Key)
  /-- `load_media_from_data` or `svg_raster_tile` is called with a picture that can be decoded
  (media_store.rs:177, 205) -/
  | other (k : Key) (p : Pic)
  /-- `take_completed` (media_store.rs:131-133) -/
  | take
  /-- a thread goes on -/
  | run (i : Nat) (r : Option Nat) (ok : Bool)
deriving DecidableEq

def St.step (s : St) : Act → St
  | .request k => { s with threads := s.threads ++ [.req k] }
  | .other k p => { s with threads := s.threads ++ [.other k p] }
  | .take => { s.say (.taken s.completed) with completed := false }
  | .run i r ok =>
    match s.threads[i]? with
    | none => s
    | some pc => s.move i r ok pc

end Verif.Media
