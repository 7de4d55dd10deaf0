import Verif.Map

/-!
Model of `/repo/crates/gosub_engine/src/net/decision_hub.rs`: pending user decisions.

A schedule is a list of atomic steps of any number of threads.  `fulfill` (58-62) is two atomic
steps: the removal of the waiter from the concurrent map (`take`), after which the calling thread
owns the sender, and the send on the one-shot channel (`send`).  Tokens are v4 UUIDs: the model
takes the token of a registration as an input, and the theorems say where they need tokens to be
distinct.  `A` is the type of actions.
-/
set_option linter.unusedVariables false
set_option linter.dupNamespace false

namespace Verif.Hub
open Verif.Map

/-- A one-shot channel made by `register` (53): its token, what its receiver got, and whether the
receiver still exists. -/
structure Chan (A : Type) where
  token : Nat
  got : List A
  rxAlive : Bool
deriving DecidableEq, Repr

/-- The hub (33-35) with the channels handed out and the senders owned by threads inside
`fulfill`. -/
structure Hub (A : Type) where
  waiters : List (Nat × Nat)
  chans : List (Chan A)
  inflight : List (Nat × A)
deriving DecidableEq, Repr

/-- decision_hub.rs 44-48 `new`. -/
def init {A : Type} : Hub A := ⟨[], [], []⟩

/-- decision_hub.rs 51-56 `register`, with the token drawn. -/
def register {A : Type} (h : Hub A) (tok : Nat) : Hub A :=
  { h with waiters := put h.waiters tok h.chans.length, chans := h.chans ++ [⟨tok, [], true⟩] }

/-- decision_hub.rs 59: `self.waiters.remove(&token)`; nothing else happens when it is absent. -/
def take {A : Type} (h : Hub A) (tok : Nat) (a : A) : Hub A :=
  match look h.waiters tok with
  | none => h
  | some c => { h with waiters := del h.waiters tok, inflight := h.inflight ++ [(c, a)] }

/-- The one-shot channel receives a value, unless its receiver is gone. -/
def deliver {A : Type} (a : A) (c : Chan A) : Chan A :=
  if c.rxAlive then { c with got := c.got ++ [a] } else c

/-- decision_hub.rs 60: `tx.send(action)` by the thread holding the `k`-th sender. -/
def send {A : Type} (h : Hub A) (k : Nat) : Hub A :=
  match h.inflight[k]? with
  | none => h
  | some (c, a) => { h with inflight := h.inflight.eraseIdx k, chans := h.chans.modify c (deliver a) }

/-- The waiting side drops its receiver (the requesting task went away). -/
def dropRx {A : Type} (h : Hub A) (c : Nat) : Hub A :=
  { h with chans := h.chans.modify c (fun c => { c with rxAlive := false }) }

/-- One atomic step of some thread. -/
inductive Step (A : Type) where
  | register (tok : Nat)
  | take (tok : Nat) (a : A)
  | send (k : Nat)
  | dropRx (c : Nat)
deriving DecidableEq, Repr

/-- One atomic step. -/
def step {A : Type} (h : Hub A) : Step A → Hub A
  | .register t => register h t
  | .take t a => take h t a
  | .send k => send h k
  | .dropRx c => dropRx h c

/-- A schedule. -/
def run {A : Type} (h : Hub A) (s : List (Step A)) : Hub A := s.foldl step h

end Verif.Hub
