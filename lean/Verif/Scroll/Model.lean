import Mathlib.Tactic.Common
import Mathlib.Data.Rat.Floor
import Mathlib.Algebra.Order.Field.Rat
import Verif.Composite.Model

/-!
# Scrolling: easing curves, animators, and the offsets a tab keeps

Models `crates/gosub_shared/src/animation.rs`, `crates/gosub_engine/src/engine/tab/scroll.rs` and the scrolling parts of
`crates/gosub_engine/src/engine/tab/worker.rs` and `crates/gosub_engine/src/engine/context.rs`.

Simplifications: `f32`/`f64` are exact rationals (no rounding, no NaN, no infinity); a `Duration` is a non-negative
rational number of seconds; `f64::MAX` as a scroll limit is "no limit" (`none`); animators supplied by the embedder
(`ScrollBehavior::Custom`) are left out; the oscillation of `Easing::Elastic`, which needs `sin` and `powf`, is an arbitrary
function.
-/

namespace Verif.Scroll

/-- `f64::clamp` (the caller guarantees `lo ≤ hi`) -/
def clampQ (x lo hi : ℚ) : ℚ := if x < lo then lo else if hi < x then hi else x

/-- animation.rs 17-26, `StepPosition` -/
inductive StepPos
  | jumpStart | jumpEnd | jumpNone | jumpBoth
  deriving DecidableEq, Repr

/-- animation.rs 33-61, `Easing`. `elastic` carries the oscillation between the two ends, `custom` the embedder's curve. -/
inductive Easing
  | linear | smoothstep | ease | easeIn | easeOut | easeInOut
  | cubicBezier (x1 y1 x2 y2 : ℚ)
  | steps (n : Nat) (pos : StepPos)
  | bounce
  | elastic (osc : ℚ → ℚ)
  | custom (f : ℚ → ℚ)

/-- animation.rs 114-116 and 121 (and 117-119 and 123): the cubic through 0, `p`, `q`, 1 -/
def sample (p q s : ℚ) : ℚ :=
  let c := 3 * p
  let b := 3 * (q - p) - c
  let a := 1 - c - b
  ((a * s + b) * s + c) * s

/-- animation.rs 122: its derivative -/
def sampleD (p q s : ℚ) : ℚ :=
  let c := 3 * p
  let b := 3 * (q - p) - c
  let a := 1 - c - b
  (3 * a * s + 2 * b) * s + c

/-- animation.rs 127-137, the Newton loop with `n` rounds left: the parameter it returns at, if it does -/
def newton (x1 x2 t : ℚ) : Nat → ℚ → Option ℚ
  | 0, _ => none
  | n + 1, s =>
    let x := sample x1 x2 s - t
    if |x| < 1 / 1000000 then some s
    else
      let dx := sampleD x1 x2 s
      if |dx| < 1 / 1000000 then none
      else newton x1 x2 t n (clampQ (s - x / dx) 0 1)

/-- animation.rs 142-153, the bisection loop with `n` rounds left -/
def bisect (x1 x2 t : ℚ) : Nat → ℚ → ℚ → ℚ → ℚ
  | 0, _, _, s => s
  | n + 1, lo, hi, s =>
    let x := sample x1 x2 s
    if |x - t| < 1 / 1000000 then s
    else if x < t then bisect x1 x2 t n s hi ((s + hi) * (1 / 2))
    else bisect x1 x2 t n lo s ((lo + s) * (1 / 2))

/-- animation.rs 105-155, `cubic_bezier` -/
def cubicBezier (x1 y1 x2 y2 t : ℚ) : ℚ :=
  if t ≤ 0 then 0
  else if 1 ≤ t then 1
  else (newton x1 x2 t 8 t).elim (sample y1 y2 (bisect x1 x2 t 24 0 1 t)) (sample y1 y2)

/-- animation.rs 158-172, `steps` -/
def steps (n : Nat) (pos : StepPos) (t : ℚ) : ℚ :=
  let n : ℚ := (max n 1 : Nat)
  let raw : ℚ := match pos with
    | .jumpStart => (⌈t * n⌉ : Int)
    | .jumpEnd | .jumpNone | .jumpBoth => (⌊t * n⌋ : Int)
  let value := match pos with
    | .jumpNone => raw / max (n - 1) 1
    | .jumpBoth => (raw + 1) / (n + 1)
    | .jumpStart | .jumpEnd => raw / n
  clampQ value 0 1

/-- animation.rs 175-190, `bounce` -/
def bounce (t : ℚ) : ℚ :=
  let n : ℚ := 75625 / 10000
  let d : ℚ := 275 / 100
  if t < 1 / d then n * t * t
  else if t < 2 / d then
    let t := t - 15 / 10 / d
    n * t * t + 75 / 100
  else if t < 25 / 10 / d then
    let t := t - 225 / 100 / d
    n * t * t + 9375 / 10000
  else
    let t := t - 2625 / 1000 / d
    n * t * t + 984375 / 1000000

/-- animation.rs 193-202, `elastic` -/
def elastic (osc : ℚ → ℚ) (t : ℚ) : ℚ := if t ≤ 0 then 0 else if 1 ≤ t then 1 else osc t

/-- animation.rs 66-81, `Easing::eval` -/
def Easing.eval (e : Easing) (t : ℚ) : ℚ :=
  let t := clampQ t 0 1
  match e with
  | .linear => t
  | .smoothstep => t * t * (3 - 2 * t)
  | .ease => Scroll.cubicBezier (25 / 100) (1 / 10) (25 / 100) 1 t
  | .easeIn => Scroll.cubicBezier (42 / 100) 0 1 1 t
  | .easeOut => Scroll.cubicBezier 0 0 (58 / 100) 1 t
  | .easeInOut => Scroll.cubicBezier (42 / 100) 0 (58 / 100) 1 t
  | .cubicBezier x1 y1 x2 y2 => Scroll.cubicBezier x1 y1 x2 y2 t
  | .steps n pos => Scroll.steps n pos t
  | .bounce => Scroll.bounce t
  | .elastic osc => Scroll.elastic osc t
  | .custom f => f t

/-- animation.rs 232-239, `Tween` -/
structure Tween where
  easing : Easing
  duration : ℚ
  source : ℚ
  current : ℚ
  target : ℚ
  elapsed : ℚ

/-- animation.rs 243-252, `Tween::new`, with `MIN_TWEEN_SECS` of 226 -/
def Tween.new (start : ℚ) (easing : Easing) (duration : ℚ) : Tween :=
  { easing, duration := max duration (1 / 10000), source := start, current := start, target := start, elapsed := 0 }

/-- animation.rs 258-262: a new target restarts the ease from where it is now -/
def Tween.retarget (w : Tween) (target : ℚ) : Tween :=
  if target ≠ w.target then { w with source := w.current, target := target, elapsed := 0 } else w

/-- animation.rs 263-271, the rest of `Tween::step`. (The ratio is not rounded to `f32`.) -/
def Tween.advance (w : Tween) (dt : ℚ) : Tween :=
  let elapsed := min (w.elapsed + max dt 0) w.duration
  let e := w.easing.eval (elapsed / w.duration)
  let current := w.source + (w.target - w.source) * e
  { w with elapsed := elapsed, current := if w.duration ≤ elapsed then w.target else current }

/-- animation.rs 256-272, `Tween::step`; the position returned is `current` of the result -/
def Tween.step (w : Tween) (target dt : ℚ) : Tween := (w.retarget target).advance dt

/-- animation.rs 274-276, `Tween::settled` -/
def Tween.settled (w : Tween) : Bool := decide (w.source = w.target ∨ w.duration ≤ w.elapsed)

/-- animation.rs 298-305, `Spring` -/
structure Spring where
  stiffness : ℚ
  damping : ℚ
  mass : ℚ
  current : ℚ
  velocity : ℚ
  target : ℚ
  deriving DecidableEq

/-- animation.rs 309-323, `Spring::new` and `Spring::with_mass` -/
def Spring.new (start stiffness damping : ℚ) : Spring :=
  { stiffness, damping, mass := max 1 (1 / 1000000), current := start, velocity := 0, target := start }

/-- animation.rs 334-337, one sub-step of length `h` -/
def Spring.sub (p : Spring) (h : ℚ) : Spring :=
  let force := -p.stiffness * (p.current - p.target) - p.damping * p.velocity
  let v := p.velocity + force / p.mass * h
  { p with velocity := v, current := p.current + v * h }

/-- animation.rs 333-338, `n` sub-steps -/
def Spring.subs (p : Spring) (h : ℚ) : Nat → Spring
  | 0 => p
  | n + 1 => (p.sub h).subs h n

/-- animation.rs 330-331: how many sub-steps a frame of `dt` seconds (already clamped) takes -/
def subCount (dt : ℚ) : Nat := (max ⌈dt / (4 / 1000)⌉ 1).toNat

/-- animation.rs 340-343, the snap at the end, with `SPRING_SETTLE_POS` and `SPRING_SETTLE_VEL` of 291-292 -/
def Spring.snap (p : Spring) : Spring :=
  if |p.current - p.target| < 25 / 100 ∧ |p.velocity| < 25 / 100 then { p with current := p.target, velocity := 0 } else p

/-- animation.rs 327-345, `Spring::step` -/
def Spring.step (p : Spring) (target dt : ℚ) : Spring :=
  let p := { p with target := target }
  let dt := clampQ dt 0 (64 / 1000)
  (p.subs (dt / subCount dt) (subCount dt)).snap

/-- animation.rs 347-349, `Spring::settled` -/
def Spring.settled (p : Spring) : Bool := decide (p.current = p.target ∧ p.velocity = 0)

/-- the two animators of animation.rs behind `Box<dyn ScrollAnimator>` (209-223) -/
inductive Anim
  | tween (w : Tween)
  | spring (p : Spring)

/-- `ScrollAnimator::step` -/
def Anim.step (a : Anim) (target dt : ℚ) : Anim :=
  match a with
  | .tween w => .tween (w.step target dt)
  | .spring p => .spring (p.step target dt)

/-- `ScrollAnimator::position`, which is what `step` returns -/
def Anim.position : Anim → ℚ
  | .tween w => w.current
  | .spring p => p.current

/-- `ScrollAnimator::settled` -/
def Anim.settled : Anim → Bool
  | .tween w => w.settled
  | .spring p => p.settled

/-- animation.rs 366-378, `ScrollBehavior`, without `Custom` -/
inductive Behavior
  | instant
  | tween (duration : ℚ) (easing : Easing)
  | spring (stiffness damping : ℚ)

/-- animation.rs 383-390, `make_animator` -/
def Behavior.make (b : Behavior) (start : ℚ) : Option Anim :=
  match b with
  | .instant => none
  | .tween d e => some (.tween (Tween.new start e d))
  | .spring k c => some (.spring (Spring.new start k c))

/-- animation.rs 393-395, `is_instant` -/
def Behavior.isInstant : Behavior → Bool
  | .instant => true
  | .tween _ _ => false
  | .spring _ _ => false

/-- scroll.rs 23-32, `ScrollState` -/
structure State where
  behavior : Behavior
  pos : ℚ × ℚ
  target : ℚ × ℚ
  anim : Option (Anim × Anim)

/-- scroll.rs 15-20, `default_text_scroll` -/
def defaultBehavior : Behavior := .tween (220 / 1000) .smoothstep

/-- scroll.rs 35-42, `ScrollState::new` -/
def State.new (b : Behavior) : State := { behavior := b, pos := (0, 0), target := (0, 0), anim := none }

/-- scroll.rs 57-58: `clamp(0.0, max)`; no limit when `max` is `f64::MAX` -/
def clampMax (x : ℚ) : Option ℚ → ℚ
  | some m => clampQ x 0 m
  | none => max x 0

/-- `f64::round` and `as i32`, which saturates -/
def roundI32 (q : ℚ) : Int := min (max (Composite.roundQ q) (-2147483648)) 2147483647

/-- scroll.rs 110-112, `round` -/
def round2 (p : ℚ × ℚ) : Int × Int := (roundI32 p.1, roundI32 p.2)

/-- scroll.rs 57-58: the new target -/
def State.aim (s : State) (dx dy : ℚ) (maxX maxY : Option ℚ) : State :=
  { s with target := (clampMax (s.target.1 + dx) maxX, clampMax (s.target.2 + dy) maxY) }

/-- scroll.rs 60-81: the rest of `scroll_by` -/
def State.start (s : State) : State × Option (Int × Int) :=
  if s.behavior.isInstant then
    ({ s with pos := s.target, anim := none }, some (round2 s.target))
  else
    match s.anim with
    | some _ => (s, none)
    | none =>
      match s.behavior.make s.pos.1, s.behavior.make s.pos.2 with
      | some ax, some ay => ({ s with anim := some (ax, ay) }, none)
      | _, _ => ({ s with pos := s.target }, some (round2 s.target))

/-- scroll.rs 56-82, `scroll_by` -/
def State.scrollBy (s : State) (dx dy : ℚ) (maxX maxY : Option ℚ) : State × Option (Int × Int) :=
  (s.aim dx dy maxX maxY).start

/-- scroll.rs 86-95, `tick` -/
def State.tick (s : State) (dt : ℚ) : State × Option (Int × Int) :=
  match s.anim with
  | none => (s, none)
  | some (ax, ay) =>
    let ax := ax.step s.target.1 dt
    let ay := ay.step s.target.2 dt
    let s :=
      if ax.settled && ay.settled then { s with pos := s.target, anim := none }
      else { s with pos := (ax.position, ay.position), anim := some (ax, ay) }
    (s, some (round2 s.pos))

/-- scroll.rs 98-100, `animating` -/
def State.animating (s : State) : Bool := s.anim.isSome

/-- scroll.rs 103-107, `reset` -/
def State.reset (s : State) (x y : ℚ) : State := { s with pos := (x, y), target := (x, y), anim := none }

/-- The scrolling fields of a tab: `scroll`, `scroll_x`/`scroll_y` and `desired_viewport` of worker.rs 223-230, and
`scroll_x`/`scroll_y`, `viewport` and the cached page height (643-648) of context.rs 143-157. Only the heights of viewports
are kept. -/
structure Tab where
  st : State
  /-- what the worker reports and saves in the session history -/
  off : Int × Int
  /-- what the page is drawn at -/
  ctx : ℚ × ℚ
  page : Option ℚ
  want : ℚ
  vh : ℚ
  dirty : Bool

/-- worker.rs 443-447: a fresh tab. (The default viewport is 0 high until the embedder sets one.) -/
def Tab.new (b : Behavior) : Tab :=
  { st := State.new b, off := (0, 0), ctx := (0, 0), page := none, want := 0, vh := 0, dirty := false }

/-- context.rs 311-323, `set_scroll`: the offset afterwards -/
def Tab.setScroll (t : Tab) (x y : ℚ) : Tab :=
  let x := max x 0
  let y := t.page.elim (max y 0) fun ph => min (max y 0) (max (ph - t.vh) 0)
  if |t.ctx.1 - x| < 1 / 2 ∧ |t.ctx.2 - y| < 1 / 2 then t else { t with ctx := (x, y) }

/-- worker.rs 1024-1031: the vertical limit; `page_height()` (context.rs 706-708) is 0 for a page not laid out -/
def Tab.maxY (t : Tab) : Option ℚ :=
  let ph := t.page.getD 0
  if 0 < ph then some (max (ph - t.want) 0) else none

/-- worker.rs 1036-1039 and 1055-1059, 1795-1800: the offset the animator reports reaches the worker and the context -/
def Tab.moveTo (t : Tab) (p : Int × Int) : Tab :=
  if p ≠ t.off then { ({ t with off := p }).setScroll p.1 p.2 with dirty := true } else t

/-- worker.rs 1020-1068, `scroll_page_by`. (The zero-copy fast path shows the same offset.) -/
def Tab.scrollPageBy (t : Tab) (dx dy : ℚ) : Tab :=
  let (st, moved) := t.st.scrollBy dx dy none t.maxY
  let t := { t with st := st }
  match moved with
  | some p => ({ t with off := p, dirty := t.dirty || decide (p ≠ t.off) }).setScroll p.1 p.2
  | none => t

/-- worker.rs 1787-1805, the animation step of `tick_draw` -/
def Tab.animate (t : Tab) (dt : ℚ) : Tab :=
  match t.st.tick dt with
  | (st, some p) => ({ t with st := st }).moveTo p
  | (_, none) => t

/-- worker.rs 1815-1818 and 1858: the drawing part of `tick_draw`. A dirty tick gives the viewport to the context, which
forgets the page height if it changed (context.rs 295-308), and lays the page out, with `lay` the height that gives (none:
nothing to lay out). -/
def Tab.draw (t : Tab) (lay : Option ℚ) : Tab :=
  if t.dirty then
    { t with dirty := false, vh := t.want, page := lay.or (if t.want = t.vh then t.page else none) }
  else t

/-- worker.rs 1764-: `tick_draw`, `dt` seconds after the last one -/
def Tab.tick (t : Tab) (dt : ℚ) (lay : Option ℚ) : Tab := (t.animate dt).draw lay

/-- worker.rs 1334-1343, `apply_scroll`: scrolling to a fragment, or back to where a history entry was left -/
def Tab.applyScroll (t : Tab) (x y : Int) : Tab :=
  let t := t.setScroll x y
  { t with off := round2 t.ctx, st := t.st.reset t.ctx.1 t.ctx.2, dirty := true }

/-- worker.rs 1630-1636, `reset_scroll_for_navigation` -/
def Tab.resetScroll (t : Tab) : Tab := { t with off := (0, 0), st := t.st.reset 0 0, ctx := (0, 0) }

/-- What can happen to a tab, as far as scrolling goes. -/
inductive Event
  /-- `MouseScroll` (worker.rs 1143) and the scrolling keys (900-909) -/
  | wheel (dx dy : ℚ)
  | tick (dt : ℚ) (lay : Option ℚ)
  /-- `set_viewport` (worker.rs 2027-2035) -/
  | resize (h : ℚ)
  | jump (x y : Int)
  /-- a navigation starts -/
  | leave
  /-- its document is set (context.rs 273-291) -/
  | document
  /-- the content of the page changes: worker.rs 1811 and others mark it for drawing -/
  | touch

def Tab.step (t : Tab) : Event → Tab
  | .wheel dx dy => t.scrollPageBy dx dy
  | .tick dt lay => t.tick dt lay
  | .resize h => if h = t.want then t else { t with want := h, dirty := true }
  | .jump x y => t.applyScroll x y
  | .leave => t.resetScroll
  | .document => { t with page := none, dirty := true }
  | .touch => { t with dirty := true }

def Tab.run (t : Tab) (es : List Event) : Tab := es.foldl Tab.step t

/-! ## The scrolling keys -/

/-- worker.rs 897-909: what a key scrolls by (vertically, then horizontally swapped: `(dx, dy)`) -/
def keyDelta (want : ℚ) (shift : Bool) (key : String) : Option (ℚ × ℚ) :=
  let line : ℚ := 40
  let far : ℚ := 1000000000
  let page := max (want - line) line
  if key = "ArrowDown" then some (0, line)
  else if key = "ArrowUp" then some (0, -line)
  else if key = "ArrowRight" then some (line, 0)
  else if key = "ArrowLeft" then some (-line, 0)
  else if key = "PageDown" then some (0, page)
  else if key = "PageUp" then some (0, -page)
  else if key = " " then (if shift then some (0, -page) else some (0, page))
  else if key = "Home" then some (0, -far)
  else if key = "End" then some (0, far)
  else none

end Verif.Scroll
