import Verif.Scroll.Lemmas2

/-! # Which way it moves, and how far -/

namespace Verif.Scroll

/-! ## rounding -/

theorem roundQ_mono {a b : ℚ} (h : a ≤ b) : Composite.roundQ a ≤ Composite.roundQ b := by
  unfold Composite.roundQ
  split_ifs with ha hb hb
  · exact Int.floor_le_floor (by linarith)
  · linarith
  · have h1 : 0 ≤ ⌊-a + 1 / 2⌋ := Int.floor_nonneg.2 (by linarith)
    have h2 : 0 ≤ ⌊b + 1 / 2⌋ := Int.floor_nonneg.2 (by linarith)
    omega
  · have : ⌊-b + 1 / 2⌋ ≤ ⌊-a + 1 / 2⌋ := Int.floor_le_floor (by linarith)
    omega

theorem roundI32_mono {a b : ℚ} (h : a ≤ b) : roundI32 a ≤ roundI32 b := by
  have := roundQ_mono h
  unfold roundI32
  omega

theorem Between.round {a b c : ℚ} (h : Between a b c) : BetweenZ (roundI32 a) (roundI32 b) (roundI32 c) := by
  rcases h with ⟨h1, h2⟩ | ⟨h1, h2⟩
  · exact Or.inl ⟨roundI32_mono h1, roundI32_mono h2⟩
  · exact Or.inr ⟨roundI32_mono h1, roundI32_mono h2⟩

theorem roundQ_nonneg {q : ℚ} (h : 0 ≤ q) : 0 ≤ Composite.roundQ q := by
  unfold Composite.roundQ
  rw [if_pos h]
  exact Int.floor_nonneg.2 (by linarith)

theorem roundQ_near {q : ℚ} (h : 0 ≤ q) : (Composite.roundQ q : ℚ) ≤ q + 1 / 2 ∧ q - 1 / 2 ≤ Composite.roundQ q := by
  unfold Composite.roundQ
  rw [if_pos h]
  have a := Int.floor_le (q + 1 / 2)
  have b := Int.lt_floor_add_one (q + 1 / 2)
  constructor <;> linarith

theorem roundI32_nonneg {q : ℚ} (h : 0 ≤ q) : 0 ≤ roundI32 q := by
  have := roundQ_nonneg h
  unfold roundI32; omega

theorem roundI32_le {q : ℚ} (h : 0 ≤ q) : (roundI32 q : ℚ) ≤ q + 1 / 2 := by
  have a := (roundQ_near h).1
  have b := roundQ_nonneg h
  have : roundI32 q ≤ Composite.roundQ q := by unfold roundI32; omega
  have : (roundI32 q : ℚ) ≤ Composite.roundQ q := by exact_mod_cast this
  linarith

theorem roundI32_near {q : ℚ} (h : 0 ≤ q) (hb : q ≤ 2147483647) : |(roundI32 q : ℚ) - q| ≤ 1 / 2 := by
  have a := roundQ_near h
  have b := roundQ_nonneg h
  have e : roundI32 q = Composite.roundQ q := by
    have : Composite.roundQ q ≤ Composite.roundQ 2147483647 := roundQ_mono hb
    have : Composite.roundQ 2147483647 = 2147483647 := by decide +kernel
    unfold roundI32; omega
  rw [e, abs_le]
  constructor <;> linarith

/-! ## towards the target -/

theorem between_mix {s g E F : ℚ} (h1 : E ≤ F) (h2 : F ≤ 1) : Between (s + (g - s) * E) (s + (g - s) * F) g := by
  rcases le_total s g with h | h
  · left
    constructor
    · have := mul_le_mul_of_nonneg_left h1 (sub_nonneg.2 h); linarith
    · have := mul_le_mul_of_nonneg_left h2 (sub_nonneg.2 h); linarith
  · right
    have hs : 0 ≤ s - g := by linarith
    constructor
    · have := mul_le_mul_of_nonneg_left h2 hs; linarith
    · have := mul_le_mul_of_nonneg_left h1 hs; linarith

theorem between_end (a c : ℚ) : Between a c c := by
  rcases le_total a c with h | h
  · exact Or.inl ⟨h, le_rfl⟩
  · exact Or.inr ⟨le_rfl, h⟩

theorem ratio_range {D x : ℚ} (hD : 0 < D) (h0 : 0 ≤ x) (h1 : x ≤ D) : 0 ≤ x / D ∧ x / D ≤ 1 :=
  ⟨div_nonneg h0 (le_of_lt hD), (div_le_one hD).2 h1⟩

theorem OnWay.towards {e : Easing} {D : ℚ} {w : Tween} (hD : 0 < D) (hg : Gentle e.eval) (h : OnWay e D w) (g dt : ℚ) :
    Between w.current (w.step g dt).current g := by
  have h' := h.step hD g dt
  have tg := step_target w g dt
  by_cases hend : D ≤ (w.step g dt).elapsed
  · rw [h'.fin hend, tg]; exact between_end _ _
  · rw [not_le] at hend
    have hm := h'.mid hend
    have r' := ratio_range hD h'.start h'.stop
    rw [tg] at hm
    by_cases hr : g = w.target
    · have src : (w.step g dt).source = w.source := by
        simp only [Tween.step, Tween.advance, Tween.retarget, ne_eq, hr, not_true_eq_false, if_false]
      have el := step_elapsed h.duration g dt
      have hle : w.elapsed ≤ (w.step g dt).elapsed := by
        rw [el, heading, if_pos hr]
        exact le_min (by linarith [le_max_right dt 0]) h.stop
      have hlt : w.elapsed < D := lt_of_le_of_lt hle hend
      have r := ratio_range hD h.start h.stop
      rw [hm, src, h.mid hlt, ← hr]
      exact between_mix (hg.rises _ _ r.1 (div_le_div_of_nonneg_right hle (le_of_lt hD)) r'.2) (hg.high _ r'.1 r'.2)
    · have src : (w.step g dt).source = w.current := by
        simp only [Tween.step, Tween.advance, Tween.retarget, ne_eq, hr, not_false_eq_true, if_true]
      rw [hm, src]
      have := between_mix (s := w.current) (g := g) (hg.low _ r'.1 r'.2) (hg.high _ r'.1 r'.2)
      simpa using this

theorem tick_towards {d : ℚ} {e : Easing} {s : State} (hg : Gentle e.eval) (h : Tweening d e s) (k : Sound s) (dt : ℚ) :
    Between s.pos.1 (s.tick dt).1.pos.1 s.target.1 ∧ Between s.pos.2 (s.tick dt).1.pos.2 s.target.2 := by
  simp only [State.tick]
  cases hs : s.anim with
  | none =>
    have := k.rest hs
    simp only
    rw [this]
    exact ⟨between_end _ _, between_end _ _⟩
  | some p =>
    obtain ⟨ax, ay⟩ := p
    obtain ⟨wx, wy, rfl, rfl, ox, oy⟩ := h.anim ax ay hs
    have hp := k.motion _ _ hs
    simp only
    split
    · exact ⟨between_end _ _, between_end _ _⟩
    · rw [hp]
      exact ⟨ox.towards (lasts_pos d) hg _ _, oy.towards (lasts_pos d) hg _ _⟩

/-! ## what the page is drawn at stays in the page -/

/-- `x` in `[0, m]` -/
def In (m : Option ℚ) (x : ℚ) : Prop := 0 ≤ x ∧ ∀ v, m = some v → x ≤ v

theorem In.mix {m : Option ℚ} {a b E : ℚ} (ha : In m a) (hb : In m b) (h0 : 0 ≤ E) (h1 : E ≤ 1) : In m (a + (b - a) * E) := by
  have e : a + (b - a) * E = a * (1 - E) + b * E := by ring
  have h2 : 0 ≤ 1 - E := by linarith
  rw [e]
  refine ⟨add_nonneg (mul_nonneg ha.1 h2) (mul_nonneg hb.1 h0), fun v hv => ?_⟩
  have p := mul_le_mul_of_nonneg_right (ha.2 v hv) h2
  have q := mul_le_mul_of_nonneg_right (hb.2 v hv) h0
  linarith

theorem nearest_in {x : ℚ} {m : Option ℚ} (hm : ∀ v, m = some v → 0 ≤ v) : In m (nearest x m) := by
  cases m with
  | none => exact ⟨le_max_left _ _, fun v hv => by simp at hv⟩
  | some v =>
    refine ⟨le_max_left _ _, fun w hw => ?_⟩
    cases hw
    exact max_le (hm v rfl) (min_le_right _ _)

theorem room_nonneg (ph vh : ℚ) : 0 ≤ room ph vh := le_max_right _ _

theorem setScroll_in {ph vh : ℚ} {t : Tab} (h : Stays ph vh t) (hc : 0 ≤ t.ctx.1 ∧ 0 ≤ t.ctx.2 ∧ t.ctx.2 ≤ room ph vh)
    (x y : ℚ) : 0 ≤ (t.setScroll x y).ctx.1 ∧ 0 ≤ (t.setScroll x y).ctx.2 ∧ (t.setScroll x y).ctx.2 ≤ room ph vh := by
  simp only [Tab.setScroll, h.page, Option.elim, h.vh]
  split
  · exact hc
  · exact ⟨le_max_right _ _, le_min (le_max_right _ _) (le_max_right _ _), min_le_right _ _⟩

theorem setScroll_near {ph vh : ℚ} {t : Tab} (h : Stays ph vh t) {x y : ℚ} (hx : 0 ≤ x) (hy : 0 ≤ y)
    (hy' : y ≤ room ph vh + 1 / 2) : |(t.setScroll x y).ctx.1 - x| < 1 ∧ |(t.setScroll x y).ctx.2 - y| < 1 := by
  simp only [Tab.setScroll, h.page, Option.elim, h.vh]
  have hr : max (ph - vh) 0 = room ph vh := rfl
  rw [hr, max_eq_left hx, max_eq_left hy]
  have hm : y - 1 / 2 ≤ min y (room ph vh) := le_min (by linarith) (by linarith)
  have hm' : min y (room ph vh) ≤ y := min_le_left _ _
  generalize min y (room ph vh) = z at *
  split
  · rename_i hc
    obtain ⟨c1, c2⟩ := hc
    rw [abs_lt] at c1 c2 ⊢
    rw [abs_lt]
    refine ⟨⟨?_, ?_⟩, ?_, ?_⟩ <;> linarith
  · simp only
    rw [sub_self, abs_zero, abs_lt]
    refine ⟨by norm_num, ?_, ?_⟩ <;> linarith

theorem moveTo_ctx (t : Tab) (p : Int × Int) :
    (t.moveTo p).ctx = t.ctx ∧ p = t.off ∨ (t.moveTo p).ctx = (({ t with off := p } : Tab).setScroll p.1 p.2).ctx := by
  simp only [Tab.moveTo]
  split
  · right; rfl
  · rename_i h; left; exact ⟨rfl, not_not.1 h⟩

/-- the page is drawn within its bounds -/
def Inside (ph vh : ℚ) (t : Tab) : Prop := 0 ≤ t.ctx.1 ∧ 0 ≤ t.ctx.2 ∧ t.ctx.2 ≤ room ph vh

theorem Inside.step {ph vh : ℚ} {t : Tab} (hs : Stays ph vh t) (h : Inside ph vh t) {e : Event} (he : SamePage ph e) :
    Inside ph vh (t.step e) := by
  rcases he with (⟨dx, dy, rfl⟩ | ⟨dt, lay, rfl, hl⟩) | ⟨x, y, -, -, rfl⟩ | rfl | rfl
  · simp only [Tab.step, Tab.scrollPageBy, Inside]
    split
    · refine setScroll_in (ph := ph) (vh := vh) ?_ ?_ _ _
      · exact ⟨hs.page, hs.want, hs.vh⟩
      · exact h
    · exact h
  · simp only [Tab.step, Tab.tick, Inside]
    rw [draw_ctx]
    simp only [Tab.animate]
    split
    · rename_i st p _
      rcases moveTo_ctx { t with st := st } p with ⟨hc, -⟩ | hc
      · rw [hc]; exact h
      · rw [hc]
        exact setScroll_in (t := { t with st := st, off := p }) ⟨hs.page, hs.want, hs.vh⟩ h _ _
    · exact h
  · exact setScroll_in hs h _ _
  · exact ⟨le_rfl, le_rfl, room_nonneg _ _⟩
  · exact h

theorem Inside.run {ph vh : ℚ} {es : List Event} (he : ∀ e ∈ es, SamePage ph e) :
    ∀ {t : Tab}, Stays ph vh t → Inside ph vh t → Inside ph vh (t.run es) := by
  induction es with
  | nil => exact fun _ h => h
  | cons e es ih =>
    exact fun hs h => ih (fun x hx => he x (by simp [hx])) (hs.step (he e (by simp))) (Inside.step hs h (he e (by simp)))

/-! ## what is reported is what is drawn -/

/-- a tween and everything it interpolates between stays in the page -/
structure Held (m : Option ℚ) (w : Tween) : Prop where
  source : In m w.source
  target : In m w.target
  current : In m w.current

theorem Held.new {m : Option ℚ} {x : ℚ} (h : In m x) (e : Easing) (d : ℚ) : Held m (Tween.new x e d) := ⟨h, h, h⟩

theorem Held.step {m : Option ℚ} {e : Easing} {D : ℚ} {w : Tween} (hD : 0 < D) (hc : Contained e.eval) (o : OnWay e D w)
    (h : Held m w) {g : ℚ} (hg : In m g) (dt : ℚ) : Held m (w.step g dt) := by
  have hs : In m (w.step g dt).source := by
    simp only [Tween.step, Tween.advance, Tween.retarget]
    split
    · exact h.current
    · exact h.source
  have ht : In m (w.step g dt).target := by rw [step_target]; exact hg
  refine ⟨hs, ht, ?_⟩
  have o' := o.step hD g dt
  by_cases hend : D ≤ (w.step g dt).elapsed
  · rw [o'.fin hend]; exact ht
  · rw [o'.mid (not_le.1 hend)]
    have r := ratio_range hD o'.start o'.stop
    exact hs.mix ht (hc _ r.1 r.2).1 (hc _ r.1 r.2).2

structure Boxed (m : ℚ) (s : State) : Prop where
  pos : In none s.pos.1 ∧ In (some m) s.pos.2
  target : In none s.target.1 ∧ In (some m) s.target.2
  anim : ∀ wx wy, s.anim = some (.tween wx, .tween wy) → Held none wx ∧ Held (some m) wy

theorem Boxed.reset {m : ℚ} {s : State} {x y : ℚ} (hx : In none x) (hy : In (some m) y) : Boxed m (s.reset x y) :=
  ⟨⟨hx, hy⟩, ⟨hx, hy⟩, fun _ _ h => by simp [State.reset] at h⟩

theorem Boxed.start {m d : ℚ} {e : Easing} {s : State} (b : s.behavior = .tween d e) (h : Boxed m s) : Boxed m s.start.1 := by
  simp only [State.start, b, Behavior.isInstant, Bool.false_eq_true, if_false]
  cases hs : s.anim with
  | some ab => exact h
  | none =>
    refine ⟨h.pos, h.target, fun wx wy hw => ?_⟩
    simp only [Behavior.make, Option.some.injEq, Prod.mk.injEq, Anim.tween.injEq] at hw
    rw [← hw.1, ← hw.2]
    exact ⟨Held.new h.pos.1 _ _, Held.new h.pos.2 _ _⟩

theorem Boxed.tick {m d : ℚ} {e : Easing} (hc : Contained e.eval) {s : State} (w : Tweening d e s) (h : Boxed m s) (dt : ℚ) :
    Boxed m (s.tick dt).1 := by
  simp only [State.tick]
  cases hs : s.anim with
  | none => exact h
  | some p =>
    obtain ⟨ax, ay⟩ := p
    obtain ⟨wx, wy, rfl, rfl, ox, oy⟩ := w.anim ax ay hs
    obtain ⟨hx, hy⟩ := h.anim wx wy hs
    have hx' := hx.step (lasts_pos d) hc ox h.target.1 dt
    have hy' := hy.step (lasts_pos d) hc oy h.target.2 dt
    simp only
    split
    · exact ⟨h.target, h.target, fun _ _ e => by simp at e⟩
    · refine ⟨⟨hx'.current, hy'.current⟩, h.target, fun ux uy e => ?_⟩
      simp only [Anim.step, Option.some.injEq, Prod.mk.injEq, Anim.tween.injEq] at e
      rw [← e.1, ← e.2]
      exact ⟨hx', hy'⟩

/-- the offset reported is the offset drawn, up to less than a pixel -/
def Close (t : Tab) : Prop := |t.ctx.1 - t.off.1| < 1 ∧ |t.ctx.2 - t.off.2| < 1

structure Good (d : ℚ) (e : Easing) (ph vh : ℚ) (t : Tab) : Prop where
  stays : Stays ph vh t
  ok : t.Ok
  tweening : Tweening d e t.st
  boxed : Boxed (room ph vh) t.st
  inside : Inside ph vh t
  close : Close t
  small : t.ctx.1 ≤ 2147483647 ∧ t.ctx.2 ≤ 2147483647

theorem roundI32_small (q : ℚ) : (roundI32 q : ℚ) ≤ 2147483647 := by
  have : roundI32 q ≤ 2147483647 := by unfold roundI32; omega
  exact_mod_cast this

theorem setScroll_small {ph vh : ℚ} {t : Tab} (h : Stays ph vh t) (hc : t.ctx.1 ≤ 2147483647 ∧ t.ctx.2 ≤ 2147483647)
    {x y : ℚ} (hx : x ≤ 2147483647) (hy : y ≤ 2147483647) :
    (t.setScroll x y).ctx.1 ≤ 2147483647 ∧ (t.setScroll x y).ctx.2 ≤ 2147483647 := by
  simp only [Tab.setScroll, h.page, Option.elim, h.vh]
  split
  · exact hc
  · exact ⟨max_le hx (by norm_num), (min_le_left _ _).trans (max_le hy (by norm_num))⟩

theorem Good.step {d : ℚ} {e : Easing} {ph vh : ℚ} (h0 : 0 < ph) (hc : Contained e.eval) {t : Tab} (h : Good d e ph vh t)
    {ev : Event} (he : SamePage ph ev) : Good d e ph vh (t.step ev) := by
  have bx : Boxed (room ph vh) (t.step ev).st ∧ Close (t.step ev) ∧
      ((t.step ev).ctx.1 ≤ 2147483647 ∧ (t.step ev).ctx.2 ≤ 2147483647) := by
    rcases he with (⟨dx, dy, rfl⟩ | ⟨dt, lay, rfl, hl⟩) | ⟨x, y, hx, hy, rfl⟩ | rfl | rfl
    · have hno : (t.st.scrollBy dx dy none t.maxY).2 = none := by
        simp only [State.scrollBy, State.start, State.aim, h.tweening.behavior, Behavior.isInstant, Bool.false_eq_true,
          if_false]
        cases hs : t.st.anim with
        | some ab => rfl
        | none => rfl
      refine ⟨?_, ?_⟩
      · rw [Tab.step, scrollPageBy_st]
        refine Boxed.start (s := t.st.aim dx dy none t.maxY) (d := d) (e := e) h.tweening.behavior ⟨h.boxed.pos, ?_, h.boxed.anim⟩
        simp only [State.aim]
        rw [maxY_eq h.stays.page h0, h.stays.want]
        rw [clampMax_eq (by simp), clampMax_eq (by intro v hv; cases hv; exact room_nonneg _ _)]
        exact ⟨nearest_in (by simp), nearest_in (by intro v hv; cases hv; exact room_nonneg _ _)⟩
      · have : t.scrollPageBy dx dy = { t with st := (t.st.scrollBy dx dy none t.maxY).1 } := by
          simp only [Tab.scrollPageBy, hno]
        rw [Tab.step, this]
        exact ⟨h.close, h.small⟩
    · have hb := h.boxed.tick hc h.tweening dt
      refine ⟨by rw [Tab.step, tick_st]; exact hb, ?_⟩
      simp only [Tab.step, Tab.tick, Close]
      rw [draw_ctx, draw_off]
      simp only [Tab.animate]
      split
      · rename_i st p hst
        have hp := tick_moved (s := t.st) (dt := dt) (p := p) (by rw [hst])
        rw [moveTo_off]
        rcases moveTo_ctx { t with st := st } p with ⟨hcx, hoff⟩ | hcx
        · rw [hcx, hoff]; exact ⟨h.close, h.small⟩
        · rw [hcx]
          have hx := hb.pos.1.1
          have hy := hb.pos.2.1
          have hym := hb.pos.2.2 _ rfl
          have hp1 : p.1 = roundI32 (t.st.tick dt).1.pos.1 := by rw [hp]; rfl
          have hp2 : p.2 = roundI32 (t.st.tick dt).1.pos.2 := by rw [hp]; rfl
          have sv : Stays ph vh { t with st := st, off := p } := ⟨h.stays.page, h.stays.want, h.stays.vh⟩
          constructor
          · apply setScroll_near sv
            · rw [hp1]; exact_mod_cast roundI32_nonneg hx
            · rw [hp2]; exact_mod_cast roundI32_nonneg hy
            · rw [hp2]; have := roundI32_le hy; linarith
          · apply setScroll_small sv h.small
            · rw [hp1]; exact roundI32_small _
            · rw [hp2]; exact roundI32_small _
      · exact ⟨h.close, h.small⟩
    · have hin := setScroll_in h.stays h.inside x y
      have hsm := setScroll_small h.stays h.small (x := x) (y := y) (by exact_mod_cast hx) (by exact_mod_cast hy)
      simp only [Tab.step, Tab.applyScroll]
      refine ⟨Boxed.reset ⟨hin.1, by simp⟩ ⟨hin.2.1, fun v hv => by cases hv; exact hin.2.2⟩, ?_, hsm⟩
      simp only [Close, round2]
      rw [abs_sub_comm, abs_sub_comm (t.setScroll x y).ctx.2]
      exact ⟨lt_of_le_of_lt (roundI32_near hin.1 hsm.1) (by norm_num),
        lt_of_le_of_lt (roundI32_near hin.2.1 hsm.2) (by norm_num)⟩
    · refine ⟨Boxed.reset ⟨le_rfl, by simp⟩ ⟨le_rfl, fun v hv => by cases hv; exact room_nonneg _ _⟩, ?_, ?_⟩
      · simp [Close, Tab.step, Tab.resetScroll]
      · simp only [Tab.step, Tab.resetScroll]; norm_num
    · exact ⟨h.boxed, h.close, h.small⟩
  exact ⟨h.stays.step he, h.ok.step ev, h.tweening.step ev, bx.1, Inside.step h.stays h.inside he, bx.2.1, bx.2.2⟩

theorem Good.run {d : ℚ} {e : Easing} {ph vh : ℚ} (h0 : 0 < ph) (hc : Contained e.eval) {es : List Event}
    (he : ∀ ev ∈ es, SamePage ph ev) : ∀ {t : Tab}, Good d e ph vh t → Good d e ph vh (t.run es) := by
  induction es with
  | nil => exact fun h => h
  | cons ev es ih => exact fun h => ih (fun x hx => he x (by simp [hx])) (h.step h0 hc (he ev (by simp)))

theorem Good.fresh {d : ℚ} {e : Easing} {ph vh : ℚ} {t : Tab} (h : Fresh (.tween d e) ph vh t) : Good d e ph vh t := by
  have an : ∀ a b, t.st.anim ≠ some (a, b) := fun a b hab => by rw [h.rest] at hab; simp at hab
  have z : In (some (room ph vh)) 0 := ⟨le_rfl, fun v hv => by cases hv; exact room_nonneg _ _⟩
  have z' : In none 0 := ⟨le_rfl, by simp⟩
  refine ⟨⟨h.page, h.want, h.vh⟩, ⟨⟨fun _ => by rw [h.pos, h.target], fun a b hab => absurd hab (an a b)⟩, ?_⟩,
    ⟨h.behavior, fun a b hab => absurd hab (an a b)⟩, ⟨?_, ?_, fun a b hab => absurd hab (an _ _)⟩, ?_, ?_, ?_⟩
  · rw [h.off, h.pos]; exact round2_zero
  · rw [h.pos]; exact ⟨z', z⟩
  · rw [h.target]; exact ⟨z', z⟩
  · unfold Inside; rw [h.ctx]; exact ⟨le_rfl, le_rfl, room_nonneg _ _⟩
  · simp [Close, h.ctx, h.off]
  · rw [h.ctx]; norm_num

end Verif.Scroll
