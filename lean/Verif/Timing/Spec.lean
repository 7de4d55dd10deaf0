import Verif.Timing.Model

/-! # Specification: what was measured in a history -/
namespace Verif.Timing

/-- the number of timers started -/
def starts (h : List Ev) : Nat := h.countP fun e => match e with | .start .. => true | _ => false

/-- in the history `h`, timer `id` was started in `ns` at `t`, and the table was not cleared since -/
inductive Started : List Ev → Str → Nat → Nat → Prop
  | now (h ns t) : Started (h ++ [.start ns t]) ns (starts h) t
  | later {h ns id t} (e) : Started h ns id t → e ≠ .clear → Started (h ++ [e]) ns id t

/-- in the history `h`, timer `id` of `ns` was stopped, and the last time it was, `d` had passed since its start -/
inductive Measured : List Ev → Str → Nat → Nat → Prop
  | now {h ns id t} (t') : Started h ns id t → Measured (h ++ [.stop id t']) ns id (t' - t)
  | later {h ns id d} (e) : Measured h ns id d → e ≠ .clear → (∀ t, e ≠ .stop id t) → Measured (h ++ [e]) ns id d

/-- `v` is a `num`/`den` quantile of `l`: it is in `l`, at most that part of `l` is below it, and at least
that part is not above it -/
def Quantile (l : List Nat) (num den v : Nat) : Prop :=
  v ∈ l ∧ (l.countP fun x => decide (x < v)) * den ≤ l.length * num ∧
    l.length * num ≤ (l.countP fun x => decide (x ≤ v)) * den

/-- the statistics of some durations -/
def Describes (r : Stats) (l : List Nat) : Prop :=
  r.count = l.length ∧ r.total = l.sum ∧
  (l = [] → r = ⟨0, 0, 0, 0, 0, 0, 0, 0, 0⟩) ∧
  (l ≠ [] → r.min ∈ l ∧ (∀ x ∈ l, r.min ≤ x) ∧ r.max ∈ l ∧ (∀ x ∈ l, x ≤ r.max) ∧
    r.avg * l.length ≤ l.sum ∧ l.sum < (r.avg + 1) * l.length ∧
    Quantile l 1 2 r.p50 ∧ Quantile l 3 4 r.p75 ∧ Quantile l 19 20 r.p95 ∧ Quantile l 99 100 r.p99)

end Verif.Timing
