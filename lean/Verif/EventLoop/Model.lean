/-!
# Model of the event loop for scripts and its listeners

Files modelled (in /repo/crates/gosub_web_platform/src): `event_listeners.rs`, `lib.rs`.

The loop is a transition system: a step is one message sent, one wish for a listener, the end of all senders, or one
turn of `tokio::select!` in which the one or the other channel is ready. `select!` picks any ready channel, so all
orders of steps are possible. Simplification: a callback is a number, and calling it adds the call to a log; what it
spawns is not modelled.
-/
namespace Verif.EventLoop

/-- `gosub_interface/src/input.rs:19-24` -/
inductive Button
  | left
  | right
  | middle
  deriving DecidableEq

/-- a point: the bits of two floats, which are only handed on -/
abbrev Point := Nat × Nat

/-- `gosub_interface/src/input.rs:4-17` -/
inductive Input
  | mouseMove (p : Point)
  | mouseScroll (d : Point)
  | mouseDown (b : Button)
  | mouseUp (b : Button)
  | keyboardDown (k : Char)
  | keyboardUp (k : Char)
  deriving DecidableEq

/-- what a callback is called with: `event_listeners.rs:15-33` -/
inductive Data
  | button (b : Button)
  | key (k : Char)
  | move (p : Point)
  | scroll (d : Point)
  deriving DecidableEq

/-- `event_listeners.rs:6-13` -/
inductive Listener
  | mouseDown (cb : Nat)
  | mouseUp (cb : Nat)
  | mouseMove (cb : Nat)
  | mouseScroll (cb : Nat)
  | keyboardUp (cb : Nat)
  | keyboardDown (cb : Nat)
  deriving DecidableEq

/-- `lib.rs:37-40` -/
inductive Msg
  | input (e : Input)
  | close
  deriving DecidableEq

/-- `event_listeners.rs:61-68` -/
structure Listeners where
  mouseUp : List Nat := []
  mouseDown : List Nat := []
  mouseMove : List Nat := []
  mouseScroll : List Nat := []
  keyboardUp : List Nat := []
  keyboardDown : List Nat := []

/-- `event_listeners.rs:71-80` -/
def Listeners.add (t : Listeners) : Listener → Listeners
  | .mouseDown c => { t with mouseDown := t.mouseDown ++ [c] }
  | .mouseUp c => { t with mouseUp := t.mouseUp ++ [c] }
  | .mouseMove c => { t with mouseMove := t.mouseMove ++ [c] }
  | .mouseScroll c => { t with mouseScroll := t.mouseScroll ++ [c] }
  | .keyboardUp c => { t with keyboardUp := t.keyboardUp ++ [c] }
  | .keyboardDown c => { t with keyboardDown := t.keyboardDown ++ [c] }

/-- `event_listeners.rs:40-44`: the calls made -/
def handleEvent (l : List Nat) (d : Data) : List (Nat × Data) := l.map fun c => (c, d)

/-- `event_listeners.rs:82-103` -/
def Listeners.handle (t : Listeners) : Input → List (Nat × Data)
  | .mouseDown b => handleEvent t.mouseDown (.button b)
  | .mouseUp b => handleEvent t.mouseUp (.button b)
  | .mouseMove p => handleEvent t.mouseMove (.move p)
  | .mouseScroll d => handleEvent t.mouseScroll (.scroll d)
  | .keyboardDown k => handleEvent t.keyboardDown (.key k)
  | .keyboardUp k => handleEvent t.keyboardUp (.key k)

/-- what the loop has handled, in its order -/
inductive Item
  | listener (l : Listener)
  | msg (m : Msg)
  deriving DecidableEq

/-- the loop with its channels, `lib.rs:22-29`. `accepted`, `asked` and `handled` are records for the specification
that no step reads. -/
structure St where
  listeners : Listeners := {}
  queue : List Msg := []
  wishes : List Listener := []
  closed : Bool := false
  dropped : Bool := false
  ended : Bool := false
  calls : List (Nat × Data) := []
  accepted : List Msg := []
  asked : List Listener := []
  handled : List Item := []

/-- what happens -/
inductive Step
  | send (m : Msg)
  | listen (l : Listener)
  | drop
  | recv
  | recvLocal
  deriving DecidableEq

/-- `lib.rs:89-98`: one message -/
def St.handle (s : St) (m : Msg) : St :=
  match m with
  | .input e => { s with calls := s.calls ++ s.listeners.handle e, handled := s.handled ++ [.msg m] }
  | .close => { s with closed := true, handled := s.handled ++ [.msg m] }

/-- one step; the channels hold 100 messages (`lib.rs:50`, `53`). A sender that finds the channel full waits: this is
no step. A closed channel takes no more messages, but hands out those it has; `recv` answers `None` when there are
none left and the channel is closed or all senders are gone, and then the loop ends (`lib.rs:70-87`). The other
channel is never closed, as the loop itself has a sender of it. -/
def St.step (s : St) : Step → St
  | .send m =>
    if s.closed || s.dropped || s.ended || decide (100 ≤ s.queue.length) then s
    else { s with queue := s.queue ++ [m], accepted := s.accepted ++ [m] }
  | .listen l =>
    if s.ended || decide (100 ≤ s.wishes.length) then s
    else { s with wishes := s.wishes ++ [l], asked := s.asked ++ [l] }
  | .drop => { s with dropped := true }
  | .recv =>
    if s.ended then s
    else match s.queue with
      | m :: r => ({ s with queue := r }).handle m
      | [] => if s.closed || s.dropped then { s with ended := true } else s
  | .recvLocal =>
    if s.ended then s
    else match s.wishes with
      | l :: r => { s with wishes := r, listeners := s.listeners.add l, handled := s.handled ++ [.listener l] }
      | [] => s

/-- a schedule -/
def St.run (s : St) (l : List Step) : St := l.foldl St.step s

end Verif.EventLoop
