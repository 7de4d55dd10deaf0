import Verif.Scroll.Lemmas

/-! # Tweens, and the invariants of a tab -/

namespace Verif.Scroll

/-! ## setters -/

theorem setScroll_st (t : Tab) (x y : ℚ) : (t.setScroll x y).st = t.st := by
  simp only [Tab.setScroll]; split <;> rfl
theorem setScroll_off (t : Tab) (x y : ℚ) : (t.setScroll x y).off = t.off := by
  simp only [Tab.setScroll]; split <;> rfl
theorem setScroll_page (t : Tab) (x y : ℚ) : (t.setScroll x y).page = t.page := by
  simp only [Tab.setScroll]; split <;> rfl
theorem setScroll_want (t : Tab) (x y : ℚ) : (t.setScroll x y).want = t.want := by
  simp only [Tab.setScroll]; split <;> rfl
theorem setScroll_vh (t : Tab) (x y : ℚ) : (t.setScroll x y).vh = t.vh := by
  simp only [Tab.setScroll]; split <;> rfl

theorem moveTo_st (t : Tab) (p : Int × Int) : (t.moveTo p).st = t.st := by
  simp only [Tab.moveTo]; split
  · exact setScroll_st _ _ _
  · rfl
theorem moveTo_off (t : Tab) (p : Int × Int) : (t.moveTo p).off = p := by
  simp only [Tab.moveTo]; split
  · exact setScroll_off _ _ _
  · rename_i h; exact (not_not.1 h).symm
theorem moveTo_page (t : Tab) (p : Int × Int) : (t.moveTo p).page = t.page := by
  simp only [Tab.moveTo]; split
  · exact setScroll_page _ _ _
  · rfl
theorem moveTo_want (t : Tab) (p : Int × Int) : (t.moveTo p).want = t.want := by
  simp only [Tab.moveTo]; split
  · exact setScroll_want _ _ _
  · rfl
theorem moveTo_vh (t : Tab) (p : Int × Int) : (t.moveTo p).vh = t.vh := by
  simp only [Tab.moveTo]; split
  · exact setScroll_vh _ _ _
  · rfl

theorem draw_st (t : Tab) (lay : Option ℚ) : (t.draw lay).st = t.st := by simp only [Tab.draw]; split <;> rfl
theorem draw_off (t : Tab) (lay : Option ℚ) : (t.draw lay).off = t.off := by simp only [Tab.draw]; split <;> rfl
theorem draw_ctx (t : Tab) (lay : Option ℚ) : (t.draw lay).ctx = t.ctx := by simp only [Tab.draw]; split <;> rfl
theorem draw_want (t : Tab) (lay : Option ℚ) : (t.draw lay).want = t.want := by simp only [Tab.draw]; split <;> rfl

theorem draw_same {t : Tab} {ph : ℚ} {lay : Option ℚ} (hp : t.page = some ph) (hw : t.want = t.vh)
    (hl : lay = none ∨ lay = some ph) : (t.draw lay).page = some ph ∧ (t.draw lay).want = (t.draw lay).vh := by
  simp only [Tab.draw]
  split
  · rcases hl with rfl | rfl <;> simp [hw, hp]
  · exact ⟨hp, hw⟩

theorem draw_vh {t : Tab} {lay : Option ℚ} (hw : t.want = t.vh) : (t.draw lay).vh = t.vh := by
  simp only [Tab.draw]
  split
  · exact hw
  · rfl

/-! ## scroll state, any behaviour -/

/-- at rest the position is the target; in motion it is where the animators are -/
structure Sound (s : State) : Prop where
  rest : s.anim = none → s.pos = s.target
  motion : ∀ a b, s.anim = some (a, b) → s.pos = (a.position, b.position)

theorem make_position {b : Behavior} {x : ℚ} {a : Anim} (h : b.make x = some a) : a.position = x := by
  cases b <;> simp [Behavior.make] at h <;> subst h <;> rfl

theorem Sound.new (b : Behavior) : Sound (State.new b) := ⟨fun _ => rfl, fun _ _ h => by simp [State.new] at h⟩

theorem Sound.reset (s : State) (x y : ℚ) : Sound (s.reset x y) := ⟨fun _ => rfl, fun _ _ h => by simp [State.reset] at h⟩

theorem Sound.start {s : State} (h : ∀ a b, s.anim = some (a, b) → s.pos = (a.position, b.position)) :
    Sound s.start.1 := by
  simp only [State.start]
  split
  · exact ⟨fun _ => rfl, fun _ _ e => by simp at e⟩
  · split
    · rename_i ab hab
      exact ⟨fun e => by simp [hab] at e, h⟩
    · split
      · rename_i ax ay hx hy
        refine ⟨fun e => by simp at e, fun a b e => ?_⟩
        simp only [Option.some.injEq, Prod.mk.injEq] at e
        obtain ⟨rfl, rfl⟩ := e
        simp [make_position hx, make_position hy]
      · exact ⟨fun _ => rfl, fun _ _ e => by simp_all⟩

theorem Sound.scrollBy {s : State} (h : Sound s) (dx dy : ℚ) (mx my : Option ℚ) : Sound (s.scrollBy dx dy mx my).1 :=
  Sound.start (s := s.aim dx dy mx my) h.motion

theorem Sound.tick {s : State} (h : Sound s) (dt : ℚ) : Sound (s.tick dt).1 := by
  simp only [State.tick]
  split
  · exact h
  · split
    · exact ⟨fun _ => rfl, fun _ _ e => by simp at e⟩
    · refine ⟨fun e => by simp at e, fun a b e => ?_⟩
      simp only [Option.some.injEq, Prod.mk.injEq] at e
      obtain ⟨rfl, rfl⟩ := e
      rfl

theorem tick_target (s : State) (dt : ℚ) : (s.tick dt).1.target = s.target := by
  simp only [State.tick]; split
  · rfl
  · split <;> rfl

theorem tick_behavior (s : State) (dt : ℚ) : (s.tick dt).1.behavior = s.behavior := by
  simp only [State.tick]; split
  · rfl
  · split <;> rfl

theorem start_target (s : State) : s.start.1.target = s.target := by
  simp only [State.start]
  split
  · rfl
  · split
    · rfl
    · split <;> rfl

theorem start_behavior (s : State) : s.start.1.behavior = s.behavior := by
  simp only [State.start]
  split
  · rfl
  · split
    · rfl
    · split <;> rfl

theorem start_moved {s : State} {p : Int × Int} (h : s.start.2 = some p) : p = round2 s.start.1.pos := by
  simp only [State.start] at h ⊢
  split at h
  · rename_i hi
    simp only [Option.some.injEq] at h
    simp [hi, ← h]
  · rename_i hi
    rw [if_neg hi]
    split at h
    · simp at h
    · rename_i hn
      split at h
      · simp at h
      · simp only [Option.some.injEq] at h
        exact h.symm

theorem start_still {s : State} (h : s.start.2 = none) : s.start.1.pos = s.pos := by
  simp only [State.start] at h ⊢
  split at h
  · simp at h
  · rename_i hi
    rw [if_neg hi]
    split at h
    · rfl
    · split at h
      · rfl
      · simp at h

theorem tick_moved {s : State} {dt : ℚ} {p : Int × Int} (h : (s.tick dt).2 = some p) : p = round2 (s.tick dt).1.pos := by
  simp only [State.tick] at h ⊢
  split at h
  · simp at h
  · rename_i hn
    simp only [Option.some.injEq] at h
    simp [← h]

theorem tick_still {s : State} {dt : ℚ} (h : (s.tick dt).2 = none) : (s.tick dt).1 = s := by
  simp only [State.tick] at h ⊢
  split at h
  · simp [*]
  · simp at h

/-! ## tab, any behaviour -/

structure Tab.Ok (t : Tab) : Prop where
  sound : Sound t.st
  off : t.off = round2 t.st.pos

theorem scrollPageBy_st (t : Tab) (dx dy : ℚ) : (t.scrollPageBy dx dy).st = (t.st.scrollBy dx dy none t.maxY).1 := by
  simp only [Tab.scrollPageBy]
  split
  · exact setScroll_st _ _ _
  · rfl

theorem animate_st (t : Tab) (dt : ℚ) : (t.animate dt).st = (t.st.tick dt).1 := by
  simp only [Tab.animate]
  split
  · rename_i st p h
    rw [moveTo_st, h]
  · rename_i st h
    have := tick_still (s := t.st) (dt := dt) (by rw [h])
    rw [this]

theorem animate_off {t : Tab} (h : t.Ok) (dt : ℚ) : (t.animate dt).off = round2 (t.st.tick dt).1.pos := by
  simp only [Tab.animate]
  split
  · rename_i st p hs
    rw [moveTo_off]
    exact tick_moved (by rw [hs])
  · rename_i st hs
    have := tick_still (s := t.st) (dt := dt) (by rw [hs])
    rw [this]; exact h.off

theorem tick_st (t : Tab) (dt : ℚ) (lay : Option ℚ) : (t.tick dt lay).st = (t.st.tick dt).1 := by
  rw [Tab.tick, draw_st, animate_st]

theorem scrollPageBy_off {t : Tab} (h : t.Ok) (dx dy : ℚ) :
    (t.scrollPageBy dx dy).off = round2 (t.scrollPageBy dx dy).st.pos := by
  rw [scrollPageBy_st]
  simp only [Tab.scrollPageBy]
  split
  · rename_i p hp
    rw [setScroll_off]
    exact start_moved hp
  · rename_i hp
    have := start_still hp
    rw [State.scrollBy, this]
    exact h.off

theorem round2_zero : ((0, 0) : Int × Int) = round2 (0, 0) := by decide +kernel

theorem Tab.Ok.step {t : Tab} (h : t.Ok) (e : Event) : (t.step e).Ok := by
  cases e with
  | wheel dx dy =>
    refine ⟨?_, scrollPageBy_off h dx dy⟩
    rw [Tab.step, scrollPageBy_st]
    exact h.sound.scrollBy _ _ _ _
  | tick dt lay =>
    refine ⟨?_, ?_⟩
    · rw [Tab.step, tick_st]; exact h.sound.tick dt
    · rw [Tab.step, tick_st, Tab.tick, draw_off, animate_off h]
  | resize v => simp only [Tab.step]; split
                · exact h
                · exact ⟨h.sound, h.off⟩
  | jump x y => exact ⟨Sound.reset _ _ _, rfl⟩
  | leave => exact ⟨Sound.reset _ _ _, round2_zero⟩
  | document => exact ⟨h.sound, h.off⟩
  | touch => exact ⟨h.sound, h.off⟩

theorem Tab.Ok.run {t : Tab} (h : t.Ok) (es : List Event) : (t.run es).Ok := by
  induction es generalizing t with
  | nil => exact h
  | cons e es ih => exact ih (h.step e)

theorem Tab.Ok.new (b : Behavior) : (Tab.new b).Ok := ⟨Sound.new b, round2_zero⟩

theorem run_append (t : Tab) (a b : List Event) : t.run (a ++ b) = (t.run a).run b := by simp [Tab.run]

/-! ## tweens -/

/-- a tween of the given curve and length, somewhere on its way -/
structure OnWay (e : Easing) (D : ℚ) (w : Tween) : Prop where
  easing : w.easing = e
  duration : w.duration = D
  start : 0 ≤ w.elapsed
  stop : w.elapsed ≤ D
  mid : w.elapsed < D → w.current = w.source + (w.target - w.source) * e.eval (w.elapsed / D)
  fin : D ≤ w.elapsed → w.current = w.target

theorem OnWay.new (e : Easing) (d x : ℚ) : OnWay e (lasts d) (Tween.new x e d) := by
  have : (0 : ℚ) < lasts d := lt_of_lt_of_le (by norm_num) (le_max_right _ _)
  refine ⟨rfl, rfl, le_rfl, le_of_lt this, fun _ => ?_, fun _ => rfl⟩
  simp [Tween.new]

theorem retarget_easing (w : Tween) (g : ℚ) : (w.retarget g).easing = w.easing := by
  simp only [Tween.retarget]; split <;> rfl
theorem retarget_duration (w : Tween) (g : ℚ) : (w.retarget g).duration = w.duration := by
  simp only [Tween.retarget]; split <;> rfl
theorem retarget_target (w : Tween) (g : ℚ) : (w.retarget g).target = g := by
  simp only [Tween.retarget]; split
  · rfl
  · rename_i h; exact (not_not.1 h).symm
theorem retarget_current (w : Tween) (g : ℚ) : (w.retarget g).current = w.current := by
  simp only [Tween.retarget]; split <;> rfl

theorem step_target (w : Tween) (g dt : ℚ) : (w.step g dt).target = g := retarget_target w g

theorem OnWay.step {e : Easing} {D : ℚ} {w : Tween} (hD : 0 < D) (h : OnWay e D w) (g dt : ℚ) : OnWay e D (w.step g dt) := by
  have he := retarget_easing w g
  have hd := retarget_duration w g
  have h0 : 0 ≤ (w.retarget g).elapsed := by
    simp only [Tween.retarget]; split
    · exact le_rfl
    · exact h.start
  refine ⟨?_, ?_, ?_, ?_, ?_, ?_⟩
  · exact he.trans h.easing
  · exact hd.trans h.duration
  · simp only [Tween.step, Tween.advance]
    rw [hd, h.duration]
    exact le_min (add_nonneg h0 (le_max_right _ _)) (le_of_lt hD)
  · simp only [Tween.step, Tween.advance]
    rw [hd, h.duration]
    exact min_le_right _ _
  · intro hlt
    simp only [Tween.step, Tween.advance] at hlt ⊢
    rw [hd, h.duration] at hlt ⊢
    rw [if_neg (not_le.2 hlt), he, h.easing]
  · intro hle
    simp only [Tween.step, Tween.advance] at hle ⊢
    rw [hd, h.duration] at hle ⊢
    rw [if_pos hle]

/-- the time a tween has been heading for `g` -/
def heading (w : Tween) (g : ℚ) : ℚ := if g = w.target then w.elapsed else 0

theorem step_elapsed {D : ℚ} {w : Tween} (hd : w.duration = D) (g dt : ℚ) :
    (w.step g dt).elapsed = min (heading w g + max dt 0) D := by
  simp only [Tween.step, Tween.advance, heading, Tween.retarget]
  by_cases h : g = w.target
  · simp [h, hd]
  · simp [h, hd]

theorem heading_step (w : Tween) (g dt : ℚ) : heading (w.step g dt) g = (w.step g dt).elapsed := by
  simp [heading, step_target]

/-! ## a tab whose behaviour is a tween -/

structure Tweening (d : ℚ) (e : Easing) (s : State) : Prop where
  behavior : s.behavior = .tween d e
  anim : ∀ a b, s.anim = some (a, b) → ∃ wx wy, a = .tween wx ∧ b = .tween wy ∧ OnWay e (lasts d) wx ∧ OnWay e (lasts d) wy

theorem lasts_pos (d : ℚ) : 0 < lasts d := lt_of_lt_of_le (by norm_num) (le_max_right _ _)

theorem Tweening.new (d : ℚ) (e : Easing) : Tweening d e (State.new (.tween d e)) :=
  ⟨rfl, fun _ _ h => by simp [State.new] at h⟩

theorem Tweening.reset {d : ℚ} {e : Easing} {s : State} (h : Tweening d e s) (x y : ℚ) : Tweening d e (s.reset x y) :=
  ⟨h.behavior, fun _ _ h => by simp [State.reset] at h⟩

theorem Tweening.start {d : ℚ} {e : Easing} {s : State} (h : Tweening d e s) : Tweening d e s.start.1 := by
  refine ⟨(start_behavior s).trans h.behavior, ?_⟩
  simp only [State.start, h.behavior, Behavior.isInstant, Bool.false_eq_true, if_false]
  cases hs : s.anim with
  | some ab => exact fun a b => by simpa [hs] using h.anim a b
  | none =>
    intro a b hab
    simp only [Behavior.make, Option.some.injEq, Prod.mk.injEq] at hab
    exact ⟨_, _, hab.1.symm, hab.2.symm, OnWay.new e d _, OnWay.new e d _⟩

theorem Tweening.scrollBy {d : ℚ} {e : Easing} {s : State} (h : Tweening d e s) (dx dy : ℚ) (mx my : Option ℚ) :
    Tweening d e (s.scrollBy dx dy mx my).1 := Tweening.start (s := s.aim dx dy mx my) ⟨h.behavior, h.anim⟩

theorem Tweening.tick {d : ℚ} {e : Easing} {s : State} (h : Tweening d e s) (dt : ℚ) : Tweening d e (s.tick dt).1 := by
  refine ⟨(tick_behavior s dt).trans h.behavior, ?_⟩
  intro a b hab
  simp only [State.tick] at hab
  cases hs : s.anim with
  | none => simp [hs] at hab
  | some p =>
    obtain ⟨ax, ay⟩ := p
    obtain ⟨wx, wy, rfl, rfl, ox, oy⟩ := h.anim ax ay hs
    simp only [hs] at hab
    split at hab
    · simp at hab
    · simp only [Option.some.injEq, Prod.mk.injEq] at hab
      exact ⟨_, _, hab.1.symm, hab.2.symm, ox.step (lasts_pos d) _ _, oy.step (lasts_pos d) _ _⟩

theorem Tweening.step {d : ℚ} {e : Easing} {t : Tab} (h : Tweening d e t.st) (ev : Event) : Tweening d e (t.step ev).st := by
  cases ev with
  | wheel dx dy => rw [Tab.step, scrollPageBy_st]; exact h.scrollBy _ _ _ _
  | tick dt lay => rw [Tab.step, tick_st]; exact h.tick dt
  | resize v => simp only [Tab.step]; split <;> exact h
  | jump x y =>
    simp only [Tab.step, Tab.applyScroll]
    rw [setScroll_st]
    exact h.reset _ _
  | leave => exact h.reset _ _
  | document => exact h
  | touch => exact h

theorem Tweening.run {d : ℚ} {e : Easing} {t : Tab} (h : Tweening d e t.st) (es : List Event) :
    Tweening d e (t.run es).st := by
  induction es generalizing t with
  | nil => exact h
  | cons ev es ih => exact ih (Tweening.step h ev)

/-! ## landing -/

/-- how long the animation has been heading for its present target: at least `τ` on both axes, or it is over -/
def Flown (s : State) (τ : ℚ) : Prop :=
  s.anim = none ∨ ∃ wx wy, s.anim = some (.tween wx, .tween wy) ∧ τ ≤ heading wx s.target.1 ∧ τ ≤ heading wy s.target.2

theorem Flown.tick {d : ℚ} {e : Easing} {s : State} {τ : ℚ} (h : Tweening d e s) (f : Flown s τ) (dt : ℚ) :
    (s.tick dt).1.anim = none ∨ (τ + max dt 0 < lasts d ∧ Flown (s.tick dt).1 (τ + max dt 0)) := by
  rcases f with hn | ⟨wx, wy, hs, fx, fy⟩
  · left; simp [State.tick, hn]
  · obtain ⟨wx', wy', e1, e2, ox, oy⟩ := h.anim _ _ hs
    cases e1; cases e2
    simp only [State.tick, hs]
    split
    · left; rfl
    · rename_i hset
      right
      have ex := step_elapsed ox.duration s.target.1 dt
      have ey := step_elapsed oy.duration s.target.2 dt
      have lt : τ + max dt 0 < lasts d := by
        by_contra hge
        rw [not_lt] at hge
        apply hset
        rw [Bool.and_eq_true]
        constructor
        · simp only [Anim.step, Anim.settled, Tween.settled, decide_eq_true_eq]
          right
          rw [(ox.step (lasts_pos d) s.target.1 dt).duration, ex]
          exact le_min (by linarith) le_rfl
        · simp only [Anim.step, Anim.settled, Tween.settled, decide_eq_true_eq]
          right
          rw [(oy.step (lasts_pos d) s.target.2 dt).duration, ey]
          exact le_min (by linarith) le_rfl
      refine ⟨lt, Or.inr ⟨_, _, rfl, ?_, ?_⟩⟩
      · rw [heading_step, ex]
        exact le_min (by linarith) (le_of_lt lt)
      · rw [heading_step, ey]
        exact le_min (by linarith) (le_of_lt lt)

theorem time_nonneg (es : List Event) : 0 ≤ time es := by
  induction es with
  | nil => exact le_rfl
  | cons e es ih =>
    cases e <;> simp only [time] <;> try exact ih
    exact add_nonneg (le_max_right _ _) ih

theorem draws_target {t : Tab} {ts : List Event} (hd : ∀ e ∈ ts, Drawing e) : (t.run ts).st.target = t.st.target := by
  induction ts generalizing t with
  | nil => rfl
  | cons e ts ih =>
    obtain ⟨dt, lay, rfl⟩ := hd e (by simp)
    refine (ih (t := t.step (.tick dt lay)) fun x hx => hd x (by simp [hx])).trans ?_
    rw [Tab.step, tick_st, tick_target]

theorem rests {t : Tab} {ts : List Event} (hd : ∀ e ∈ ts, Drawing e) (hr : t.st.anim = none) :
    (t.run ts).st.anim = none := by
  induction ts generalizing t with
  | nil => exact hr
  | cons e ts ih =>
    obtain ⟨dt, lay, rfl⟩ := hd e (by simp)
    refine ih (t := t.step (.tick dt lay)) (fun x hx => hd x (by simp [hx])) ?_
    rw [Tab.step, tick_st]
    simp [State.tick, hr]

theorem lands {d : ℚ} {e : Easing} {ts : List Event} (hd : ∀ x ∈ ts, Drawing x) : ∀ {t : Tab} {τ : ℚ}, Tweening d e t.st →
    Flown t.st τ → lasts d ≤ τ + time ts → τ < lasts d → (t.run ts).st.anim = none := by
  induction ts with
  | nil => intro t τ _ _ h1 h2; simp only [time] at h1; linarith
  | cons x ts ih =>
    intro t τ h f h1 h2
    obtain ⟨dt, lay, rfl⟩ := hd x (by simp)
    have hd' : ∀ x ∈ ts, Drawing x := fun x hx => hd x (by simp [hx])
    have h' : Tweening d e (t.step (.tick dt lay)).st := Tweening.step h _
    have st : (t.step (.tick dt lay)).st = (t.st.tick dt).1 := tick_st _ _ _
    rcases f.tick h dt with hn | ⟨lt, hf⟩
    · exact rests (t := t.step (.tick dt lay)) hd' (by rw [st]; exact hn)
    · refine ih hd' (t := t.step (.tick dt lay)) h' (by rw [st]; exact hf) ?_ lt
      simp only [time] at h1
      linarith

theorem flown_zero {d : ℚ} {e : Easing} {s : State} (h : Tweening d e s) : Flown s 0 := by
  cases hs : s.anim with
  | none => left; exact hs
  | some p =>
    obtain ⟨a, b⟩ := p
    obtain ⟨wx, wy, rfl, rfl, ox, oy⟩ := h.anim a b hs
    right
    refine ⟨wx, wy, hs, ?_, ?_⟩ <;> unfold heading <;> split
    · exact ox.start
    · exact le_rfl
    · exact oy.start
    · exact le_rfl

/-! ## where it is heading -/

theorem clampMax_eq {x : ℚ} {m : Option ℚ} (hm : ∀ v, m = some v → 0 ≤ v) : clampMax x m = nearest x m := by
  cases m with
  | none => simp [clampMax, nearest, max_comm]
  | some v =>
    have := hm v rfl
    simp only [clampMax, nearest, clampQ, Option.elim]
    split_ifs with a b
    · rw [min_eq_left (by linarith), max_eq_left (by linarith)]
    · rw [min_eq_right (by linarith), max_eq_right this]
    · rw [min_eq_left (by linarith), max_eq_right (by linarith)]

theorem scrollBy_target (s : State) (dx dy : ℚ) (mx my : Option ℚ) :
    (s.scrollBy dx dy mx my).1.target = (clampMax (s.target.1 + dx) mx, clampMax (s.target.2 + dy) my) :=
  start_target _

theorem scrollPageBy_page (t : Tab) (dx dy : ℚ) : (t.scrollPageBy dx dy).page = t.page := by
  simp only [Tab.scrollPageBy]; split
  · exact setScroll_page _ _ _
  · rfl
theorem scrollPageBy_want (t : Tab) (dx dy : ℚ) : (t.scrollPageBy dx dy).want = t.want := by
  simp only [Tab.scrollPageBy]; split
  · exact setScroll_want _ _ _
  · rfl
theorem scrollPageBy_vh (t : Tab) (dx dy : ℚ) : (t.scrollPageBy dx dy).vh = t.vh := by
  simp only [Tab.scrollPageBy]; split
  · exact setScroll_vh _ _ _
  · rfl

theorem animate_page (t : Tab) (dt : ℚ) : (t.animate dt).page = t.page := by
  simp only [Tab.animate]; split
  · exact moveTo_page _ _
  · rfl
theorem animate_want (t : Tab) (dt : ℚ) : (t.animate dt).want = t.want := by
  simp only [Tab.animate]; split
  · exact moveTo_want _ _
  · rfl
theorem animate_vh (t : Tab) (dt : ℚ) : (t.animate dt).vh = t.vh := by
  simp only [Tab.animate]; split
  · exact moveTo_vh _ _
  · rfl

theorem maxY_eq {t : Tab} {ph : ℚ} (hp : t.page = some ph) (h0 : 0 < ph) : t.maxY = some (room ph t.want) := by
  simp [Tab.maxY, hp, h0, room]

/-- the page and the window stay as they are -/
structure Stays (ph vh : ℚ) (t : Tab) : Prop where
  page : t.page = some ph
  want : t.want = vh
  vh : t.vh = vh

theorem Stays.step {ph vh : ℚ} {t : Tab} (h : Stays ph vh t) {e : Event} (he : SamePage ph e) : Stays ph vh (t.step e) := by
  rcases he with (⟨dx, dy, rfl⟩ | ⟨dt, lay, rfl, hl⟩) | ⟨x, y, -, -, rfl⟩ | rfl | rfl
  · exact ⟨(scrollPageBy_page t dx dy).trans h.page, (scrollPageBy_want t dx dy).trans h.want,
      (scrollPageBy_vh t dx dy).trans h.vh⟩
  · have p := (animate_page t dt).trans h.page
    have w := (animate_want t dt).trans h.want
    have v := (animate_vh t dt).trans h.vh
    have := draw_same p (w.trans v.symm) hl
    exact ⟨this.1, (draw_want _ _).trans w, (draw_vh (w.trans v.symm)).trans v⟩
  · exact ⟨(setScroll_page t x y).trans h.page, (setScroll_want t x y).trans h.want, (setScroll_vh t x y).trans h.vh⟩
  · exact ⟨h.page, h.want, h.vh⟩
  · exact ⟨h.page, h.want, h.vh⟩

theorem Stays.run {ph vh : ℚ} {es : List Event} (he : ∀ e ∈ es, SamePage ph e) :
    ∀ {t : Tab}, Stays ph vh t → Stays ph vh (t.run es) := by
  induction es with
  | nil => exact fun h => h
  | cons e es ih => exact fun h => ih (fun x hx => he x (by simp [hx])) (h.step (he e (by simp)))

theorem headed {ph vh : ℚ} (h0 : 0 < ph) {es : List Event} (he : ∀ e ∈ es, Scrolling ph e) : ∀ {t : Tab}, Stays ph vh t →
    (t.run es).st.target = destination (some (room ph vh)) t.st.target (wheels es) := by
  induction es with
  | nil => intro t _; rfl
  | cons e es ih =>
    intro t h
    have h' := h.step (Or.inl (he e (by simp)))
    have := ih (fun x hx => he x (by simp [hx])) h'
    refine this.trans ?_
    rcases he e (by simp) with ⟨dx, dy, rfl⟩ | ⟨dt, lay, rfl, hl⟩
    · simp only [wheels, destination]
      congr 1
      rw [Tab.step, scrollPageBy_st, scrollBy_target, maxY_eq h.page h0, h.want, clampMax_eq (by simp),
        clampMax_eq (by intro v hv; cases hv; exact le_max_right _ _)]
    · simp only [wheels]
      congr 1
      rw [Tab.step, tick_st, tick_target]

end Verif.Scroll
