import Verif.Media.Model

/-! # Specification: what a page relies on when it asks for images -/

namespace Verif.Media

/-- The store after any history and schedule. -/
def after (acts : List Act) : St := acts.foldl St.step start

/-- How often a source was fetched. -/
def fetches (k : Key) (log : List Event) : Nat :=
  log.countP (fun e => match e with
    | .fetched k' _ => k' = k
    | _ => false)

/-- No inline image and no size of an SVG has this text as its key. -/
def Source (k : Key) (acts : List Act) : Prop := ∀ p, .other k p ∉ acts

/-- A thread is at work for a source: a request that is not answered, or a fetch. -/
def busy (k : Key) : Pc → Bool
  | .miss k' | .own k' | .noSpawn k' | .load k' | .fetch k' | .failed k' | .alloc k' _ | .entry k' _ _
  | .store k' _ | .drop k' | .signal k' => k' = k
  | _ => false

/-- The engine is told to lay the page out again: the flag is up and the source is there, or after the
events `a` and `b` up to now the engine has seen the flag in `b`, with the source there. -/
def Told (k : Key) (s : St) (a b : List Event) : Prop :=
  (s.completed = true ∧ s.cache k ≠ none) ∨
  ∃ b1 b2, b = b1 ++ .taken true :: b2 ∧ .stored k ∈ a ++ b1

end Verif.Media
