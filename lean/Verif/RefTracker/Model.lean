import Verif.Map

/-!
Model of `/repo/crates/gosub_engine/src/net/req_ref_tracker.rs`: the two-way registry of request
references (`RefRegistry`) and the per-group request counter (`RequestRefTracker`).

Both are used from many threads.  A schedule is a list of atomic steps; atomics are sequentially
consistent in the model (the code uses `Ordering::Relaxed`, recorded in DESIGN.md).  A `DashMap`
guard is modelled: while a thread holds the read guard of an entry, steps that need the write lock
of that entry are not enabled (`none`).  DashMap locks whole shards, which only disables more
schedules.
-/
set_option linter.unusedVariables false

namespace Verif.RefTracker
open Verif.Map

/-- req_ref_tracker.rs 27-36 `RequestReference`. -/
inductive Ref where
  | navigation (id : Nat)
  | document (id : Nat)
  | prefetch (id : Nat)
  | background (id : Nat)
deriving DecidableEq, Repr

/-- `gosub_sonar::RequestReference` as used at 102, 108, 109. -/
inductive NetRef where
  | tagged (id : Nat)
  | background (id : Nat)
deriving DecidableEq, Repr

/-! ### RefRegistry -/

/-- Where a `to_net` call is: it holds the write lock of its (vacant) entry until `done`. -/
inductive CallStage where
  | locked
  | allocated (id : Nat)
  | reversed (id : Nat)
  | done (id : Nat)
deriving DecidableEq, Repr

/-- A `to_net` call. -/
structure Call where
  ref : Ref
  stage : CallStage
deriving DecidableEq, Repr

/-- req_ref_tracker.rs 56-64 `RefRegistry` (without `request_meta`, a plain map), with every
`to_net` call made so far.  The counter does not wrap (64 bits). -/
structure Registry where
  forward : List (Ref × Nat)
  reverse : List (Nat × Ref)
  next : Nat
  calls : List Call
deriving DecidableEq, Repr

/-- req_ref_tracker.rs 67-74 `new`. -/
def Registry.init : Registry := ⟨[], [], 1, []⟩

/-- Is some call holding the write lock of the entry of `r`? -/
def Registry.locked (g : Registry) (r : Ref) : Bool :=
  g.calls.any (fun c => decide (c.ref = r) && (match c.stage with | .done _ => false | _ => true))

/-- req_ref_tracker.rs 93-95: `self.forward.entry(reference)`. -/
def Registry.begin (g : Registry) (r : Ref) : Option Registry :=
  if g.locked r then none
  else match look g.forward r with
    | some id => some { g with calls := g.calls ++ [⟨r, .done id⟩] }
    | none => some { g with calls := g.calls ++ [⟨r, .locked⟩] }

/-- req_ref_tracker.rs 96-98: the next atomic action of the `k`-th call. -/
def Registry.advance (g : Registry) (k : Nat) : Option Registry :=
  match g.calls[k]? with
  | none => none
  | some c =>
    match c.stage with
    | .locked => some { g with next := g.next + 1, calls := g.calls.set k ⟨c.ref, .allocated g.next⟩ }
    | .allocated id => some { g with reverse := put g.reverse id c.ref, calls := g.calls.set k ⟨c.ref, .reversed id⟩ }
    | .reversed id => some { g with forward := put g.forward c.ref id, calls := g.calls.set k ⟨c.ref, .done id⟩ }
    | .done _ => none

/-- One atomic step of the registry. -/
inductive RegStep where
  | begin (r : Ref)
  | advance (k : Nat)
deriving DecidableEq, Repr

/-- One atomic step; `none` when it is not enabled. -/
def Registry.step (g : Registry) : RegStep → Option Registry
  | .begin r => g.begin r
  | .advance k => g.advance k

/-- A schedule of the registry. -/
def Registry.run (g : Registry) : List RegStep → Option Registry
  | [] => some g
  | x :: s =>
    match g.step x with
    | none => none
    | some g => g.run s

/-- What the `k`-th `to_net` call returned (102), once it has. -/
def Registry.result (g : Registry) (k : Nat) : Option (Ref × NetRef) :=
  match g.calls[k]? with
  | some ⟨r, .done id⟩ => some (r, .tagged id)
  | _ => none

/-- req_ref_tracker.rs 106-111 `from_net`. -/
def Registry.fromNet (g : Registry) : NetRef → Option Ref
  | .tagged id => look g.reverse id
  | .background id => some (.background id)

/-! ### RequestRefTracker -/

/-- Where a `dec_and_maybe_cleanup` or `finalize` call is.  In `decRead` and `finRead` it holds the
read guard of the entry. -/
inductive Stage where
  /-- 142 done (`fetch_sub` returned the given value), 143 to come -/
  | decRead (prev : Nat)
  /-- 158 done (`store(true)`), 160 to come -/
  | finRead
  /-- about to do `map.write().remove(r)` (148, 165) -/
  | rmMap
  /-- about to do `self.inner.remove(r)` (149, 166) -/
  | rmInner
  /-- `finalize` found no entry, about to do 155 -/
  | rmMapOnly
  | done
deriving DecidableEq, Repr

/-- A call in progress. -/
structure Thread where
  ref : Ref
  stage : Stage
deriving DecidableEq, Repr

/-- req_ref_tracker.rs 117-119 `RequestRefTracker` (count and finalized flag per group) with the
`RequestReferenceMap` (114, group to tab) it cleans up and the calls in progress. -/
structure Tracker where
  inner : List (Ref × (Nat × Bool))
  refMap : List (Ref × Nat)
  threads : List Thread
deriving DecidableEq, Repr

/-- 2^64, `usize` wraps below zero. -/
def usizeMod : Nat := 18446744073709551616

/-- `fetch_sub(1)` on a `usize`. -/
def wrappingDec (n : Nat) : Nat := if n = 0 then usizeMod - 1 else n - 1

/-- Does some call hold the read guard of the entry of `r`? -/
def Tracker.guarded (t : Tracker) (r : Ref) : Bool :=
  t.threads.any (fun th => decide (th.ref = r) &&
    (match th.stage with | .decRead _ => true | .finRead => true | _ => false))

/-- req_ref_tracker.rs 126-135 `inc` (needs the write lock of the entry).  The count does not
overflow. -/
def Tracker.inc (t : Tracker) (r : Ref) : Option Tracker :=
  if t.guarded r then none
  else match look t.inner r with
    | some (n, f) => some { t with inner := put t.inner r (n + 1, f) }
    | none => some { t with inner := put t.inner r (1, false) }

/-- req_ref_tracker.rs 138-142: `get` (taking the read guard) and `fetch_sub`. -/
def Tracker.decBegin (t : Tracker) (r : Ref) : Tracker :=
  match look t.inner r with
  | none => t
  | some (n, f) =>
    { t with inner := put t.inner r (wrappingDec n, f), threads := t.threads ++ [⟨r, .decRead n⟩] }

/-- req_ref_tracker.rs 154-158: `get` (taking the read guard) and `store(true)`. -/
def Tracker.finBegin (t : Tracker) (r : Ref) : Tracker :=
  match look t.inner r with
  | none => { t with threads := t.threads ++ [⟨r, .rmMapOnly⟩] }
  | some (n, _) =>
    { t with inner := put t.inner r (n, true), threads := t.threads ++ [⟨r, .finRead⟩] }

/-- The stage after 143-147 (`load` of the flag, drop of the guard, the test). -/
def afterDec (prev : Nat) (entry : Option (Nat × Bool)) : Stage :=
  match entry with
  | some (_, f) => if prev ≤ 1 && f then .rmMap else .done
  | none => .done

/-- The stage after 160-164 (`load` of the count, drop of the guard, the test). -/
def afterFin (entry : Option (Nat × Bool)) : Stage :=
  match entry with
  | some (n, _) => if n = 0 then .rmMap else .done
  | none => .done

/-- The next atomic action of the `k`-th call. -/
def Tracker.advance (t : Tracker) (k : Nat) : Option Tracker :=
  match t.threads[k]? with
  | none => none
  | some th =>
    match th.stage with
    | .decRead prev => some { t with threads := t.threads.set k ⟨th.ref, afterDec prev (look t.inner th.ref)⟩ }
    | .finRead => some { t with threads := t.threads.set k ⟨th.ref, afterFin (look t.inner th.ref)⟩ }
    | .rmMap => some { t with refMap := del t.refMap th.ref, threads := t.threads.set k ⟨th.ref, .rmInner⟩ }
    | .rmInner =>
      if t.guarded th.ref then none
      else some { t with inner := del t.inner th.ref, threads := t.threads.set k ⟨th.ref, .done⟩ }
    | .rmMapOnly => some { t with refMap := del t.refMap th.ref, threads := t.threads.set k ⟨th.ref, .done⟩ }
    | .done => none

/-- One atomic step of some thread. -/
inductive Step where
  | inc (r : Ref)
  | dec (r : Ref)
  | finalize (r : Ref)
  | advance (k : Nat)
deriving DecidableEq, Repr

/-- One atomic step; `none` when it is not enabled. -/
def Tracker.step (t : Tracker) : Step → Option Tracker
  | .inc r => t.inc r
  | .dec r => some (t.decBegin r)
  | .finalize r => some (t.finBegin r)
  | .advance k => t.advance k

/-- A schedule. -/
def Tracker.run (t : Tracker) : List Step → Option Tracker
  | [] => some t
  | x :: s =>
    match t.step x with
    | none => none
    | some t => t.run s

/-- A fresh tracker (122-124) beside a map of registered groups. -/
def Tracker.init (refMap : List (Ref × Nat)) : Tracker := ⟨[], refMap, []⟩

end Verif.RefTracker
