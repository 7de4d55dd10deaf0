import Verif.Hub.Model

/-! Specification vocabulary for C25: everything is read off the schedule. -/
namespace Verif.Hub

/-- The tokens registered by a schedule, in order. -/
def registered {A : Type} (s : List (Step A)) : List Nat :=
  s.filterMap (fun | .register t => some t | _ => none)

/-- The action of the first fulfilment naming `tok`. -/
def firstFulfilment {A : Type} (tok : Nat) : List (Step A) → Option A
  | [] => none
  | .take t a :: s => if t = tok then some a else firstFulfilment tok s
  | _ :: s => firstFulfilment tok s

/-- The answer due to the request registered under `tok`: the first fulfilment naming it after its
registration. -/
def answer {A : Type} (tok : Nat) : List (Step A) → Option A
  | [] => none
  | .register t :: s => if t = tok then firstFulfilment tok s else answer tok s
  | _ :: s => answer tok s

/-- Tokens of different registrations differ (UUID v4). -/
def Fresh {A : Type} (s : List (Step A)) : Prop := (registered s).Nodup

end Verif.Hub
