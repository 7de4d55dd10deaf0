import Verif.Scroll.Lemmas4

/-!
# Properties of scrolling and easing

* C83 — a scroll request ends exactly where it should, in the time the animation takes.
* C84 — scrolling moves straight towards its destination and does not leave the page.
* C85 — the offset a tab reports and saves is the one it draws at.
* C86 — easing curves start at 0, end at 1, stay in range, and Bézier curves are followed closely.
* C87 — stepped curves are those of CSS.
* C88 — a spring comes to rest on its target.
-/

namespace Verif.Scroll

/-- a page 5000 px high in a window 600 px high, as the engine scrolls it by default -/
def sampleTab (b : Behavior) : Tab :=
  { st := State.new b, off := (0, 0), ctx := (0, 0), page := some 5000, want := 600, vh := 600, dirty := false }

theorem sampleTab_fresh (b : Behavior) : Fresh b 5000 600 (sampleTab b) :=
  ⟨rfl, rfl, rfl, rfl, rfl, rfl, rfl, rfl, rfl, by norm_num⟩

/-- the sample is what a new tab becomes when a document arrives and is drawn -/
example : (((Tab.new defaultBehavior).run [.resize 600, .document, .tick 1 (some 5000)]).page,
    ((Tab.new defaultBehavior).run [.resize 600, .document, .tick 1 (some 5000)]).vh) = (some 5000, 600) := by
  decide +kernel

/-! ## C83 -/

/-- C83. Whatever happened to a tab before, once it shows a page of height `ph` in a window of height `vh`: after any number
of scroll requests mixed with frames, frames that take at least the length of the animation leave the tab at rest exactly
where the requests lead to, and that is the offset it reports. -/
theorem C83_lands (d : ℚ) (e : Easing) (before es ts : List Event) (ph vh : ℚ) (h0 : 0 < ph)
    (hp : ((Tab.new (.tween d e)).run before).page = some ph) (hw : ((Tab.new (.tween d e)).run before).want = vh)
    (hv : ((Tab.new (.tween d e)).run before).vh = vh) (hes : ∀ x ∈ es, Scrolling ph x) (hts : ∀ x ∈ ts, Drawing x)
    (ht : lasts d ≤ time ts) :
    let t := (Tab.new (.tween d e)).run before
    let stop := destination (some (room ph vh)) t.st.target (wheels es)
    let t' := (t.run es).run ts
    t'.st.animating = false ∧ t'.st.pos = stop ∧ t'.st.target = stop ∧ t'.off = round2 stop := by
  intro t stop t'
  have tw : Tweening d e (t.run es).st := Tweening.run (Tweening.run (Tweening.new d e) before) es
  have hn : t'.st.anim = none := lands hts tw (flown_zero tw) (by simpa using ht) (lasts_pos d)
  have hd : (t.run es).st.target = stop := headed h0 hes (t := t) ⟨hp, hw, hv⟩
  have hd' : t'.st.target = stop := (draws_target hts).trans hd
  have ok : t'.Ok := Tab.Ok.run (Tab.Ok.run (Tab.Ok.run (Tab.Ok.new _) before) es) ts
  have hpos : t'.st.pos = stop := (ok.sound.rest hn).trans hd'
  exact ⟨by simp [State.animating, hn], hpos, hd', by rw [ok.off, hpos]⟩

/-- what a tab at rest is heading for is where it is -/
theorem C83_rest (b : Behavior) (before : List Event) (h : ((Tab.new b).run before).st.animating = false) :
    ((Tab.new b).run before).st.pos = ((Tab.new b).run before).st.target := by
  have ok := Tab.Ok.run (Tab.Ok.new b) before
  exact ok.sound.rest (by simpa [State.animating] using h)

/-- C83, without animation: the request takes effect at once. -/
theorem C83_instant (before : List Event) (dx dy ph vh : ℚ) (h0 : 0 < ph)
    (hp : ((Tab.new .instant).run before).page = some ph) (hw : ((Tab.new .instant).run before).want = vh) :
    let t := (Tab.new .instant).run before
    let t' := t.step (.wheel dx dy)
    t'.off = round2 (nearest (t.st.pos.1 + dx) none, nearest (t.st.pos.2 + dy) (some (room ph vh))) := by
  intro t t'
  have ok : t.Ok := Tab.Ok.run (Tab.Ok.new _) before
  have inst : t.st.behavior = .instant ∧ t.st.anim = none := by
    have key : ∀ (es : List Event) (u : Tab), u.st.behavior = .instant ∧ u.st.anim = none →
        (u.run es).st.behavior = .instant ∧ (u.run es).st.anim = none := by
      intro es
      induction es with
      | nil => exact fun _ h => h
      | cons x es ih =>
        intro u h
        refine ih (u.step x) ?_
        cases x with
        | wheel dx dy =>
          rw [Tab.step, scrollPageBy_st]
          simp [State.scrollBy, State.start, State.aim, h.1, Behavior.isInstant]
        | tick dt lay => rw [Tab.step, tick_st]; simp [State.tick, h.1, h.2]
        | resize v => simp only [Tab.step]; split <;> exact h
        | jump x y => simp only [Tab.step, Tab.applyScroll]; rw [setScroll_st]; exact ⟨h.1, rfl⟩
        | leave => exact ⟨h.1, rfl⟩
        | document => exact h
        | touch => exact h
    exact key before _ ⟨rfl, rfl⟩
  have hpos := ok.sound.rest inst.2
  have ok' : t'.Ok := ok.step _
  rw [ok'.off]
  have : t'.st.pos = t'.st.target := by
    refine ok'.sound.rest ?_
    show (t.scrollPageBy dx dy).st.anim = none
    rw [scrollPageBy_st]
    simp [State.scrollBy, State.start, State.aim, inst.1, Behavior.isInstant]
  rw [this]
  show round2 (t.scrollPageBy dx dy).st.target = _
  rw [scrollPageBy_st, scrollBy_target, maxY_eq hp h0, hw, clampMax_eq (by simp),
    clampMax_eq (by intro v hv; cases hv; exact room_nonneg _ _), hpos]

/-- C83, the Home and End keys: they lead to the top and to the bottom of the page, wherever the tab was on it. -/
theorem C83_home_end (want ph vh : ℚ) (shift : Bool) (p : ℚ × ℚ) (hp0 : 0 ≤ p.1) (hp1 : 0 ≤ p.2) (hp2 : p.2 ≤ room ph vh)
    (hb : ph ≤ 1000000000) (hv : 0 ≤ vh) :
    (∃ d, keyDelta want shift "Home" = some d ∧ destination (some (room ph vh)) p [d] = (p.1, 0)) ∧
    (∃ d, keyDelta want shift "End" = some d ∧ destination (some (room ph vh)) p [d] = (p.1, room ph vh)) := by
  have hr : room ph vh ≤ 1000000000 := max_le (by linarith) (by norm_num)
  have r0 := room_nonneg ph vh
  refine ⟨⟨(0, -1000000000), by simp [keyDelta], ?_⟩, ⟨(0, 1000000000), by simp [keyDelta], ?_⟩⟩
  · simp only [destination, nearest, Option.elim, add_zero]
    rw [max_eq_right hp0, min_eq_left (by linarith), max_eq_left (by linarith)]
  · simp only [destination, nearest, Option.elim, add_zero]
    rw [max_eq_right hp0, min_eq_right (by linarith), max_eq_right r0]

/-- C83, paging: a page key moves on by at most the window's height, so that no line is skipped, in windows of 40 px or more. -/
theorem C83_paging (want : ℚ) (h : 40 ≤ want) :
    ∃ d, keyDelta want false "PageDown" = some (0, d) ∧ keyDelta want false "PageUp" = some (0, -d) ∧
      keyDelta want false " " = some (0, d) ∧ keyDelta want true " " = some (0, -d) ∧ 0 < d ∧ d ≤ want := by
  refine ⟨max (want - 40) 40, by simp [keyDelta], by simp [keyDelta], by simp [keyDelta], by simp [keyDelta], ?_, ?_⟩
  · exact lt_of_lt_of_le (by norm_num) (le_max_right _ _)
  · exact max_le (by linarith) h

/-- Two notches of the wheel 0.1 s apart, then a notch up 0.05 s later, end at 100 px after another 0.24 s. -/
example : (((sampleTab defaultBehavior).run [.wheel 0 100, .tick (1 / 10) none, .wheel 0 100, .tick (1 / 20) none,
    .wheel 0 (-100)]).run [.tick (16 / 100) none, .tick (8 / 100) none]).off = (0, 100) := by decide +kernel

/-- On the way the offset is strictly in between. -/
example : ((sampleTab defaultBehavior).run [.wheel 0 100, .tick (11 / 100) none]).off = (0, 50) := by decide +kernel

/-- Past the end it stops at the end. -/
example : ((sampleTab defaultBehavior).run [.wheel 0 100000, .tick 1 none]).off = (0, 4400) := by decide +kernel

/-! ## C84 -/

/-- C84. With a curve that rises from 0 to 1, every frame of an animation moves the offset towards its destination or leaves
it: it neither turns back nor goes past. In whole pixels, as reported. -/
theorem C84_towards (d : ℚ) (e : Easing) (hg : Gentle e.eval) (before : List Event) (dt : ℚ) (lay : Option ℚ) :
    let t := (Tab.new (.tween d e)).run before
    let t' := t.step (.tick dt lay)
    BetweenZ t.off.1 t'.off.1 (roundI32 t.st.target.1) ∧ BetweenZ t.off.2 t'.off.2 (roundI32 t.st.target.2) := by
  intro t t'
  have ok : t.Ok := Tab.Ok.run (Tab.Ok.new _) before
  have ok' : t'.Ok := ok.step _
  have tw : Tweening d e t.st := Tweening.run (Tweening.new d e) before
  have st : t'.st = (t.st.tick dt).1 := tick_st _ _ _
  have := tick_towards hg tw ok.sound dt
  rw [ok.off, ok'.off, st]
  exact ⟨this.1.round, this.2.round⟩

/-- the curve the engine scrolls with is such a curve -/
theorem C84_default : Gentle Easing.smoothstep.eval := by
  refine ⟨fun s t h0 h1 h2 => ?_, fun t h0 h1 => ?_, fun t h0 h1 => ?_⟩
  · simp only [Easing.eval]
    rw [clampQ_id h0 (by linarith), clampQ_id (by linarith) h2]
    nlinarith [mul_nonneg (sub_nonneg.2 h1) h0, mul_nonneg (sub_nonneg.2 h1) (sub_nonneg.2 h2),
      mul_nonneg (mul_nonneg (sub_nonneg.2 h1) h0) (sub_nonneg.2 h2),
      mul_nonneg (mul_nonneg (sub_nonneg.2 h1) h0) (sub_nonneg.2 (h1.trans h2)),
      mul_nonneg (mul_nonneg (sub_nonneg.2 h1) (h0.trans h1)) (sub_nonneg.2 h2),
      mul_nonneg (mul_nonneg (sub_nonneg.2 h1) (h0.trans h1)) (sub_nonneg.2 (h1.trans h2))]
  · simp only [Easing.eval]
    rw [clampQ_id h0 h1]
    have : 0 ≤ 3 - 2 * t := by linarith
    positivity
  · simp only [Easing.eval]
    rw [clampQ_id h0 h1]
    nlinarith [sq_nonneg (1 - t), mul_nonneg h0 (sq_nonneg (1 - t))]

/-- C84, for every way of scrolling: as long as neither the page nor the window changes its height, the page is drawn within
its bounds from top to bottom, and not to the left of its left edge. Not covered: the right edge, and changes of height
(both violated below). -/
theorem C84_in_page_partial (b : Behavior) (ph vh : ℚ) (t : Tab) (h : Fresh b ph vh t) (es : List Event)
    (hes : ∀ x ∈ es, SamePage ph x) :
    0 ≤ (t.run es).ctx.1 ∧ 0 ≤ (t.run es).ctx.2 ∧ (t.run es).ctx.2 ≤ room ph vh := by
  refine Inside.run hes (t := t) ⟨h.page, h.want, h.vh⟩ ?_
  unfold Inside
  rw [h.ctx]
  exact ⟨le_rfl, le_rfl, room_nonneg _ _⟩

example : ((sampleTab defaultBehavior).run [.wheel 0 100000, .tick 1 (some 5000), .jump 3 100000, .touch]).ctx = (3, 4400) := by
  decide +kernel

theorem still_anim {t : Tab} (h : t.st.anim = none) (n : Nat) (dt : ℚ) :
    (t.run (List.replicate n (.tick dt none))).ctx = t.ctx ∧ (t.run (List.replicate n (.tick dt none))).want = t.want := by
  induction n generalizing t with
  | zero => exact ⟨rfl, rfl⟩
  | succ n ih =>
    have hs : (t.step (.tick dt none)).st.anim = none := by
      rw [Tab.step, tick_st]; simp [State.tick, h]
    have hc : (t.step (.tick dt none)).ctx = t.ctx := by
      simp only [Tab.step, Tab.tick]
      rw [draw_ctx]
      simp [Tab.animate, State.tick, h]
    have hw : (t.step (.tick dt none)).want = t.want := by
      simp only [Tab.step, Tab.tick]
      rw [draw_want, animate_want]
    have := ih hs
    rw [hc, hw] at this
    exact this

/-- C84 is violated by the window: scrolled to the end and then made higher, the window shows space past the end of the page
— here 400 px of it — however many frames are drawn. (Only the next scroll request puts it right.) -/
theorem C84_resize_violated (n : Nat) (dt : ℚ) :
    let t := (sampleTab defaultBehavior).run [.wheel 0 5000, .tick 1 none, .resize 1000, .tick 1 (some 5000)]
    t.page = some 5000 ∧ t.vh = 1000 ∧
      (t.run (List.replicate n (.tick dt none))).ctx.2 = room 5000 1000 + 400 := by
  intro t
  have hs : t.st.anim = none := Option.isNone_iff_eq_none.1 (by decide +kernel)
  have hc : t.ctx = (0, 4400) := by decide +kernel
  refine ⟨by decide +kernel, by decide +kernel, ?_⟩
  rw [(still_anim hs n dt).1, hc]
  norm_num [room]

/-- C84 is violated sideways: nothing stops a page, however wide, from being scrolled any distance to the right. -/
theorem C84_sideways_violated (x : Nat) (hx : x ≤ 2147483647) :
    ((sampleTab defaultBehavior).run [.wheel x 0, .tick 1 none]).off.1 = x := by
  have := C83_lands (220 / 1000) .smoothstep [.resize 600, .document, .tick 1 (some 5000)] [.wheel x 0] [.tick 1 none]
    5000 600 (by norm_num) (by decide +kernel) (by decide +kernel) (by decide +kernel)
    (by intro e he; simp at he; subst he; exact Or.inl ⟨_, _, rfl⟩)
    (by intro e he; simp at he; subst he; exact ⟨_, _, rfl⟩)
    (by decide +kernel)
  have e : ((Tab.new (.tween (220 / 1000) .smoothstep)).run [.resize 600, .document, .tick 1 (some 5000)]) =
      sampleTab defaultBehavior := by
    simp [Tab.run, Tab.step, Tab.new, sampleTab, defaultBehavior, Tab.tick, Tab.animate, Tab.draw, State.tick, State.new]
  simp only [e] at this
  have h4 := this.2.2.2
  have ev : (sampleTab defaultBehavior).run [.wheel x 0, .tick 1 none] =
    ((sampleTab defaultBehavior).run [.wheel x 0]).run [.tick 1 none] := rfl
  rw [ev, h4]
  simp only [wheels, destination, nearest, Option.elim, round2, sampleTab, State.new, zero_add]
  have hx0 : (0 : ℚ) ≤ x := by exact_mod_cast Nat.zero_le x
  rw [max_eq_right hx0]
  unfold roundI32 Composite.roundQ
  rw [if_pos hx0]
  have : ⌊(x : ℚ) + 1 / 2⌋ = (x : Int) := by
    rw [Int.floor_eq_iff]
    push_cast
    constructor <;> linarith
  rw [this]
  omega

/-! ## C85 -/

/-- C85. On a page that keeps its height in a window that keeps its height, with a curve that stays between 0 and 1, the offset
the tab reports and saves in its history is less than a pixel away from the offset it draws the page at, after any sequence of
scroll requests, frames, jumps and navigations that start. Not covered: pages that are not laid out yet (violated below). -/
theorem C85_reported_partial (d : ℚ) (e : Easing) (hc : Contained e.eval) (ph vh : ℚ) (t : Tab)
    (h : Fresh (.tween d e) ph vh t) (es : List Event) (hes : ∀ x ∈ es, SamePage ph x) :
    |(t.run es).ctx.1 - (t.run es).off.1| < 1 ∧ |(t.run es).ctx.2 - (t.run es).off.2| < 1 :=
  (Good.run h.tall hc hes (Good.fresh h)).close

/-- and a jump or the start of a navigation makes both the same, up to rounding -/
theorem C85_jump (b : Behavior) (before : List Event) (x y : Int) :
    let t := (Tab.new b).run (before ++ [.jump x y])
    t.off = round2 t.ctx ∧ t.st.pos = t.ctx ∧ t.st.animating = false := by
  intro t
  have : t = ((Tab.new b).run before).step (.jump x y) := by
    show (Tab.new b).run (before ++ [.jump x y]) = _
    rw [run_append]; rfl
  rw [this]
  exact ⟨rfl, rfl, rfl⟩

theorem C85_default : Contained Easing.smoothstep.eval := fun t h0 h1 => ⟨C84_default.low t h0 h1, C84_default.high t h0 h1⟩

/-- C85 is violated when the request comes before the page is laid out: pressing End there makes the tab report (and save) an
offset of 1000000000 while the page is drawn with an offset of 4400; and pressing the arrow key up afterwards moves nothing. -/
theorem C85_unrendered_violated :
    let start := (Tab.new defaultBehavior).run [.resize 600, .document]
    let t := start.run [.wheel 0 1000000000, .tick (1 / 60) (some 5000), .tick 1 none]
    let t' := t.run [.wheel 0 (-40), .tick 1 none]
    keyDelta 600 false "End" = some (0, 1000000000) ∧ keyDelta 600 false "ArrowUp" = some (0, -40) ∧
    t.page = some 5000 ∧ t.off.2 = 1000000000 ∧ t.ctx.2 = 4400 ∧ t'.ctx.2 = 4400 ∧ t'.off.2 = 4400 := by
  decide +kernel

/-- And if the animation ends before the page is laid out, the page is drawn at that offset, with nothing of it in sight. -/
theorem C84_unrendered_violated (n : Nat) (dt : ℚ) :
    let t := (Tab.new defaultBehavior).run [.resize 600, .document, .wheel 0 1000000000, .tick 1 (some 5000)]
    t.page = some 5000 ∧ t.vh = 600 ∧ (t.run (List.replicate n (.tick dt none))).ctx.2 = 1000000000 := by
  intro t
  have hs : t.st.anim = none := Option.isNone_iff_eq_none.1 (by decide +kernel)
  have hc : t.ctx = (0, 1000000000) := by decide +kernel
  refine ⟨by decide +kernel, by decide +kernel, ?_⟩
  rw [(still_anim hs n dt).1, hc]

end Verif.Scroll
