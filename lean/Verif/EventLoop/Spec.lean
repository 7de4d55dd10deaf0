import Verif.EventLoop.Model

/-! # Specification: who is called with what -/
namespace Verif.EventLoop

/-- a listener hears an event: its callback is called with what the event carries -/
inductive Hears : Listener → Input → Nat × Data → Prop
  | mouseDown (c b) : Hears (.mouseDown c) (.mouseDown b) (c, .button b)
  | mouseUp (c b) : Hears (.mouseUp c) (.mouseUp b) (c, .button b)
  | mouseMove (c p) : Hears (.mouseMove c) (.mouseMove p) (c, .move p)
  | mouseScroll (c d) : Hears (.mouseScroll c) (.mouseScroll d) (c, .scroll d)
  | keyboardDown (c k) : Hears (.keyboardDown c) (.keyboardDown k) (c, .key k)
  | keyboardUp (c k) : Hears (.keyboardUp c) (.keyboardUp k) (c, .key k)

/-- the calls for an event after these items were handled: one for each listener among them that hears it,
in the order in which they were added -/
inductive Heard (e : Input) : List Item → List (Nat × Data) → Prop
  | nil : Heard e [] []
  | hears {l x h r} : Hears l e x → Heard e h r → Heard e (.listener l :: h) (x :: r)
  | deaf {l h r} : (∀ x, ¬ Hears l e x) → Heard e h r → Heard e (.listener l :: h) r
  | msg {m h r} : Heard e h r → Heard e (.msg m :: h) r

/-- the calls made while these items were handled -/
inductive Calls : List Item → List (Nat × Data) → Prop
  | nil : Calls [] []
  | listener {h c} (l) : Calls h c → Calls (h ++ [.listener l]) c
  | close {h c} : Calls h c → Calls (h ++ [.msg .close]) c
  | input {h c e r} : Calls h c → Heard e h r → Calls (h ++ [.msg (.input e)]) (c ++ r)

/-- the messages among the items -/
def msgs (h : List Item) : List Msg := h.filterMap fun i => match i with | .msg m => some m | _ => none

/-- the listeners among the items -/
def added (h : List Item) : List Listener := h.filterMap fun i => match i with | .listener l => some l | _ => none

end Verif.EventLoop
