import Verif.RefTracker.Model

/-! Specification vocabulary for C26, read off the schedule. -/
namespace Verif.RefTracker

/-- Requests started in group `r`. -/
def started (r : Ref) (s : List Step) : Nat := s.count (.inc r)

/-- Requests finished in group `r`. -/
def finished (r : Ref) (s : List Step) : Nat := s.count (.dec r)

/-- Group `r` has been finalized. -/
def Finalized (r : Ref) (s : List Step) : Prop := Step.finalize r ∈ s

instance (r : Ref) (s : List Step) : Decidable (Finalized r s) := by unfold Finalized; infer_instance

/-- All requests of the group have finished and it has been finalized. -/
def Over (r : Ref) (s : List Step) : Prop := Finalized r s ∧ finished r s = started r s

/-- The intended use: no request is started in a group after its finalization, and only requests
that were started finish. -/
def Disciplined (s : List Step) : Prop :=
  ∀ p x q, s = p ++ x :: q →
    (∀ r, x = .inc r → ¬ Finalized r p) ∧ (∀ r, x = .dec r → finished r p < started r p)

/-- No call is in progress. -/
def Tracker.quiet (t : Tracker) : Prop := ∀ th ∈ t.threads, th.stage = .done

instance (t : Tracker) : Decidable t.quiet := by unfold Tracker.quiet; infer_instance

/-- `r` is (still) registered. -/
def Tracker.registered (t : Tracker) (r : Ref) : Prop := (Map.look t.refMap r).isSome = true

instance (t : Tracker) (r : Ref) : Decidable (t.registered r) := by unfold Tracker.registered; infer_instance

/-- the tracker still counts requests of `r` -/
def Tracker.tracked (t : Tracker) (r : Ref) : Prop := (Map.look t.inner r).isSome = true

instance (t : Tracker) (r : Ref) : Decidable (t.tracked r) := by unfold Tracker.tracked; infer_instance

end Verif.RefTracker
