import Verif.Map

/-!
# Model of the table of timings

File modelled: `/repo/crates/gosub_shared/src/timing.rs` (not for wasm).

Times are microseconds of the monotonic clock. Simplifications: the id of a timer, a random UUID, is the number of
timers started before it, so ids never repeat; sums do not overflow (2^64 microseconds are 584 000 years); contexts,
which only `print_timings` shows, are left out.
-/
namespace Verif.Timing
open Verif.Map

/-- names of namespaces -/
abbrev Str := List Char

/-- `timing.rs:337-349`: `dur` is `none` until `end` is set, then `duration_us` -/
structure Timer where
  start : Nat
  dur : Option Nat
  deriving DecidableEq

/-- `timing.rs:38-42`; `next` is the id of the next timer -/
structure Table where
  timers : List (Nat × Timer)
  namespaces : List (Str × List Nat)
  next : Nat

/-- `timing.rs:77-82` -/
def Table.new : Table := ⟨[], [], 0⟩

/-- `timing.rs:84-90` -/
def startTimer (s : Table) (ns : Str) (now : Nat) : Table :=
  { timers := put s.timers s.next ⟨now, none⟩
    namespaces := put s.namespaces ns (((look s.namespaces ns).getD []) ++ [s.next])
    next := s.next + 1 }

/-- `timing.rs:92-96` with `Timer::end` (`388-393`); `duration_since` is 0 if the clock went back -/
def stopTimer (s : Table) (id : Nat) (now : Nat) : Table :=
  { s with timers := upd s.timers id fun t => { t with dur := some (now - t.start) } }

/-- `timing.rs:159-162` -/
def clear (s : Table) : Table := { s with timers := [], namespaces := [] }

/-- `timing.rs:44-54` -/
structure Stats where
  count : Nat
  total : Nat
  min : Nat
  max : Nat
  avg : Nat
  p50 : Nat
  p75 : Nat
  p95 : Nat
  p99 : Nat
  deriving DecidableEq

/-- `timing.rs:71-73`. Simplification: the percentage is the exact fraction; the product of floats, cut to an integer,
is the same as long as there are fewer than 2^45 timers. -/
def percentageToIndex (count num den : Nat) : Nat := Nat.min (count * num / den) (count - 1)

/-- the loop of `timing.rs:100-110` -/
def durations (s : Table) (ids : List Nat) : List Nat :=
  ids.filterMap fun id => (look s.timers id).bind (·.dur)

/-- `timing.rs:99-134` -/
def getStats (s : Table) (ids : List Nat) : Stats :=
  let ds := (durations s ids).mergeSort (fun a b => decide (a ≤ b))
  let count := ds.length
  let total := ds.sum
  { count, total
    min := ds.head?.getD 0
    max := ds.getLast?.getD 0
    avg := total / count
    p50 := ds[percentageToIndex count 50 100]?.getD 0
    p75 := ds[percentageToIndex count 75 100]?.getD 0
    p95 := ds[percentageToIndex count 95 100]?.getD 0
    p99 := ds[percentageToIndex count 99 100]?.getD 0 }

/-- `timing.rs:137-156` -/
def namespaceStats (s : Table) : List (Str × Stats) :=
  s.namespaces.map fun (ns, ids) => (ns, getStats s ids)

/-- what is done to the table, with the time -/
inductive Ev
  | start (ns : Str) (now : Nat)
  | stop (id : Nat) (now : Nat)
  | clear
  deriving DecidableEq

/-- one call -/
def step (s : Table) : Ev → Table
  | .start ns now => startTimer s ns now
  | .stop id now => stopTimer s id now
  | .clear => Timing.clear s

/-- a history of calls -/
def run (h : List Ev) : Table := h.foldl step Table.new

end Verif.Timing
