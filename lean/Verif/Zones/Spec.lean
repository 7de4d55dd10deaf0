import Verif.Zones.Model

/-!
# What is expected of zones, tabs, their services, the I/O thread and storage reports

Everything here is said in terms of the calls an embedder makes and the answers it gets.
-/

namespace Verif.Zones

/-! ## The engine -/

/-- What a call is answered with after a history of calls on a new engine. -/
def answer (max : Nat) (ops : List Op) (op : Op) : Answer := (((Engine.new max).after ops).step op).2

/-- The calls of a history with their answers. -/
def story (max : Nat) (ops : List Op) : List (Op × Answer) := (Engine.new max).trace ops

/-- What the engine did in a history. -/
def effects (max : Nat) (ops : List Op) : List Effect := ((Engine.new max).after ops).done

/-- The open zones after one more call: a zone is open from the call that gave it to the call that
closes it. Each is listed with its cookie store. -/
def openStep (zs : List (Nat × Option Nat)) : Op × Answer → List (Nat × Option Nat)
  | (.createZone _ st, .created z) => zs ++ [(z, st)]
  | (.closeZone z, _) => zs.filter (fun p => decide (p.1 ≠ z))
  | _ => zs

/-- The zones that were made and not closed. -/
def openZones (t : List (Op × Answer)) : List (Nat × Option Nat) := t.foldl openStep []

/-- The ids of the open zones. -/
def openIds (t : List (Op × Answer)) : List Nat := (openZones t).map Prod.fst

/-- No zone is asked for with the id of one that is open. -/
def Distinct (max : Nat) (ops : List Op) : Prop :=
  ∀ pre id st post, ops = pre ++ .createZone id st :: post → id ∉ openIds (story max pre)

/-- How many receivers of events there are. -/
def listening (ops : List Op) : Nat :=
  ops.foldl (fun n op => match op with
    | .subscribe => n + 1
    | .unsubscribe => n - 1
    | _ => n) 0

/-- Somebody receives events whenever a zone is asked for. -/
def Heard (ops : List Op) : Prop :=
  ∀ pre id st post, ops = pre ++ .createZone id st :: post → 0 < listening pre

/-- The engine was started, one way or the other. -/
def Begun (ops : List Op) : Prop := .start ∈ ops ∨ .run ∈ ops

/-- `start` was called, on an engine that was not running. -/
def IoStarted (ops : List Op) : Prop := ∃ pre post, ops = pre ++ .start :: post ∧ ¬ Begun pre

/-- The I/O thread was started and no shutdown was asked for since. -/
def IoRunning (ops : List Op) : Prop :=
  ∃ pre post, ops = pre ++ .start :: post ∧ ¬ Begun pre ∧ .shutdown ∉ post

/-- The run-loop future was handed out, and nothing was done with it and no shutdown asked for. -/
def Waiting (ops : List Op) : Prop :=
  ∃ pre s post, ops = pre ++ s :: post ∧ (s = .start ∨ s = .run) ∧ ¬ Begun pre ∧
    ∀ op ∈ post, op ≠ .drive ∧ op ≠ .dropLoop ∧ op ≠ .shutdown

/-- The run-loop future is being polled, and no shutdown was asked for. -/
def Driven (ops : List Op) : Prop :=
  ∃ pre post, ops = pre ++ .drive :: post ∧ Waiting pre ∧
    ∀ op ∈ post, op ≠ .dropLoop ∧ op ≠ .shutdown

/-! ## Tabs -/

def tabAnswer (z : Tabs) (ops : List TabOp) (op : TabOp) : TabAnswer := ((z.after ops).step op).2

def tabStory (z : Tabs) (ops : List TabOp) : List (TabOp × TabAnswer) := z.trace ops

def tabStep (ts : List Nat) : TabOp × TabAnswer → List Nat
  | (.create _ _, .tab id) => ts ++ [id]
  | (.close id, _) => ts.filter (fun x => decide (x ≠ id))
  | _ => ts

/-- The tabs that were given out and not closed. -/
def openTabs (t : List (TabOp × TabAnswer)) : List Nat := t.foldl tabStep []

/-- The ids drawn for new tabs. -/
def drawn (ops : List TabOp) : List Nat :=
  ops.filterMap (fun op => match op with
    | .create id _ => some id
    | _ => none)

/-- Every worker that starts lives long enough to be told its title and size. -/
def NoneLost (ops : List TabOp) : Prop := ∀ id, .create id .lost ∉ ops

/-- The value of the setting for the number of tabs. -/
def settingNow (init : Nat) (ops : List TabOp) : Nat :=
  ops.foldl (fun n op => match op with
    | .set m => m
    | _ => n) init

/-! ## Services -/

/-- Where the cookies or the storage of a tab come from: an object of the caller, what a cookie
store keeps for a zone since it was last released, or something of the tab's own. -/
inductive Source where
  | caller (n : Nat)
  | store (s zone released : Nat)
  | own (tab : Nat)
  deriving DecidableEq, Repr

/-- Where the cookies of the tab made by call `i` should come from: what the caller chose for the
tab, else the jar of the zone, else what the zone's store keeps for the zone, else its own. -/
def jarSource (ready : Nat → Bool) (us : List Use) (i : Nat) : Option Source :=
  match us[i]? with
  | some (.tab z sv ov) => some (
    match ov.jar, sv.jar, sv.store with
    | .custom n, _, _ => .caller n
    | .ephemeral, _, _ => .own i
    | .inherit, some n, _ => .caller n
    | .inherit, none, some s =>
      if ready s then .store s z ((us.take i).count (.release s z)) else .own i
    | .inherit, none, none => .own i)
  | _ => none

/-- Where the storage of the tab made by call `i` should come from. -/
def storageSource (us : List Use) (i : Nat) : Option Source :=
  match us[i]? with
  | some (.tab _ sv ov) => some (
    match ov.storage with
    | .inherit => .caller sv.storage
    | .custom n => .caller n
    | .ephemeral => .own i)
  | _ => none

/-- The tab made by call `i`. -/
def tabOf (ready : Nat → Bool) (us : List Use) (i : Nat) : Option Tab :=
  ((Depot.tabs ready ⟨[], 0, 0⟩ us)[i]?).bind id

/-- The partition a tab should use on a page: the key it was given, or the one of the policy of
its zone. -/
def expectedPart (sv : Services) (ov : Overrides) (origin : Nat) : Part :=
  match ov.key, sv.policy with
  | some k, _ => k
  | none, .none => .none
  | none, .topLevel => .topLevel origin

/-! ## The I/O thread -/

/-- The request of a command. -/
def requestOf : IoCmd → Option Nat
  | .fetch _ q _ => some q
  | _ => none

/-- The request an event disposes of. -/
def disposedOf : IoEvent → Option Nat
  | .submitted q _ => some q
  | .dropped q => some q
  | _ => none

/-- What has happened when these commands have been taken. -/
def handled (cmds : List IoCmd) : List IoEvent := (cmds.foldl Router.step ⟨[], 0, []⟩).log

/-- The fetcher is running for the zone: it was started and has not stopped. -/
def RunningFor (log : List IoEvent) (f z : Nat) : Prop := .spawned f z ∈ log ∧ .stopped f ∉ log

/-! ## Storage reports -/

def reports (as : List Act) : Reports := Reports.after ⟨[], []⟩ as

/-- Whether the zone exists, and what has changed in it since. -/
def noteChange (z : Nat) (p : Bool × List Nat) : Act → Bool × List Nat
  | .zone id _ => (p.1 || decide (id = z), p.2)
  | .change _ c => if p.1 && decide (c.zone = z) then (p.1, p.2 ++ [c.what]) else p
  | .turn _ => p

/-- The changes made in a zone, in order, from the moment the zone exists. -/
def changesOf (as : List Act) (z : Nat) : List Nat :=
  (as.foldl (noteChange z) (false, [])).2

/-- What the embedder was told about a zone. -/
def toldOf (as : List Act) (z : Nat) : List Nat :=
  ((reports as).told.filter (fun c => decide (c.zone = z))).map Change.what

/-- Every zone is made once, with a storage service of its own, in which only that zone changes
anything. -/
structure OwnStorage (as : List Act) : Prop where
  zones : ∀ pre id s post, as = pre ++ .zone id s :: post →
    ∀ id' s', .zone id' s' ∈ pre → id' ≠ id ∧ s' ≠ s
  changes : ∀ s c, .change s c ∈ as → ∀ id s', .zone id s' ∈ as → (s' = s ↔ id = c.zone)

/-- The embedder is never so far behind that the channel overflows. -/
def KeepsUp (as : List Act) : Prop :=
  ∀ pre s c post, as = pre ++ .change s c :: post →
    (changesOf pre c.zone).length < (toldOf pre c.zone).length + 512

end Verif.Zones
