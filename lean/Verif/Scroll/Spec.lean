import Verif.Scroll.Model

/-! # What scrolling and easing should do -/

namespace Verif.Scroll

/-- `b` lies between `a` and `c`, whichever of them is larger -/
def Between (a b c : ℚ) : Prop := (a ≤ b ∧ b ≤ c) ∨ (c ≤ b ∧ b ≤ a)

/-- the same for whole pixels -/
def BetweenZ (a b c : Int) : Prop := (a ≤ b ∧ b ≤ c) ∨ (c ≤ b ∧ b ≤ a)

/-! ## Easing -/

/-- A curve that rises from 0 to 1 without leaving that range. -/
structure Gentle (f : ℚ → ℚ) : Prop where
  rises : ∀ s t : ℚ, 0 ≤ s → s ≤ t → t ≤ 1 → f s ≤ f t
  low : ∀ t : ℚ, 0 ≤ t → t ≤ 1 → 0 ≤ f t
  high : ∀ t : ℚ, 0 ≤ t → t ≤ 1 → f t ≤ 1

/-- A curve that stays in the range 0 to 1. -/
def Contained (f : ℚ → ℚ) : Prop := ∀ t : ℚ, 0 ≤ t → t ≤ 1 → 0 ≤ f t ∧ f t ≤ 1

/-- One coordinate of the cubic Bézier curve with control values 0, `p`, `q`, 1 (Bernstein form). -/
def bezier (p q s : ℚ) : ℚ := 3 * (1 - s) ^ 2 * s * p + 3 * (1 - s) * s ^ 2 * q + s ^ 3

/-- CSS Easing Functions Level 1, "Step easing functions", for an input progress between 0 and 1 and with the before flag
unset: the current step is `floor(progress * n)`, one more for `jump-start` and `jump-both`, at most the number of jumps,
which is `n`, `n + 1` for `jump-both` and `n - 1` for `jump-none`; the output is the current step over the number of jumps. -/
def cssSteps (n : Nat) (pos : StepPos) (t : ℚ) : ℚ :=
  let cur : Int := ⌊t * n⌋ + (if pos = .jumpStart ∨ pos = .jumpBoth then 1 else 0)
  let jumps : Int := if pos = .jumpBoth then n + 1 else if pos = .jumpNone then n - 1 else n
  (min cur jumps : Int) / (jumps : ℚ)

/-- The step counts CSS allows: positive, and at least two for `jump-none`. -/
def CssStepCount (n : Nat) (pos : StepPos) : Prop := 1 ≤ n ∧ (pos = .jumpNone → 2 ≤ n)

/-! ## Scrolling -/

/-- The point of `[0, m]` nearest to `x` (`m = none`: of the half-line from 0 on). -/
def nearest (x : ℚ) (m : Option ℚ) : ℚ := m.elim (max 0 x) fun m => max 0 (min x m)

/-- Where a list of scroll requests leads to, starting from `p`, on a page with room to scroll down by `m`: each request
moves on from where the previous one was heading, as far as the page allows. -/
def destination (m : Option ℚ) : ℚ × ℚ → List (ℚ × ℚ) → ℚ × ℚ
  | p, [] => p
  | p, d :: ds => destination m (nearest (p.1 + d.1) none, nearest (p.2 + d.2) m) ds

/-- the scroll requests among the events -/
def wheels : List Event → List (ℚ × ℚ)
  | [] => []
  | .wheel dx dy :: es => (dx, dy) :: wheels es
  | _ :: es => wheels es

/-- the time that passes in a list of events -/
def time : List Event → ℚ
  | [] => 0
  | .tick dt _ :: es => max dt 0 + time es
  | _ :: es => time es

/-- Scrolling and drawing only, on a page whose height stays `ph`. -/
def Scrolling (ph : ℚ) (e : Event) : Prop :=
  (∃ dx dy, e = .wheel dx dy) ∨ ∃ dt lay, e = .tick dt lay ∧ (lay = none ∨ lay = some ph)

/-- Drawing only: nobody scrolls. -/
def Drawing (e : Event) : Prop := ∃ dt lay, e = .tick dt lay

/-- Anything except a change of the page or of the window. (Offsets to jump to are `i32`.) -/
def SamePage (ph : ℚ) (e : Event) : Prop :=
  Scrolling ph e ∨ (∃ x y, x ≤ 2147483647 ∧ y ≤ 2147483647 ∧ e = .jump x y) ∨ e = .leave ∨ e = .touch

/-- A tab showing a page of height `ph`, drawn and at rest at the top left corner. -/
structure Fresh (b : Behavior) (ph vh : ℚ) (t : Tab) : Prop where
  behavior : t.st.behavior = b
  rest : t.st.anim = none
  pos : t.st.pos = (0, 0)
  target : t.st.target = (0, 0)
  off : t.off = (0, 0)
  ctx : t.ctx = (0, 0)
  page : t.page = some ph
  want : t.want = vh
  vh : t.vh = vh
  tall : 0 < ph

/-- how far down a page of height `ph` can be scrolled in a window of height `vh` -/
def room (ph vh : ℚ) : ℚ := max (ph - vh) 0

/-- a tween lasts at least a tenth of a millisecond -/
def lasts (d : ℚ) : ℚ := max d (1 / 10000)

end Verif.Scroll
