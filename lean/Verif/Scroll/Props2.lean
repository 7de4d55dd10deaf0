import Verif.Scroll.Props

/-! # Properties of easing curves, steps and springs (C86 – C88) -/

namespace Verif.Scroll

/-! ## C86 -/

/-- The curves that are meant to start at 0 and end at 1: all but the stepped ones and those of the embedder. -/
def Smooth : Easing → Prop
  | .steps _ _ => False
  | .custom _ => False
  | _ => True

/-- The curves that are meant to stay between 0 and 1: all but the elastic one, those of the embedder, and Bézier curves with a
control point above or below. -/
def InRange : Easing → Prop
  | .elastic _ => False
  | .custom _ => False
  | .cubicBezier _ y1 _ y2 => 0 ≤ y1 ∧ y1 ≤ 1 ∧ 0 ≤ y2 ∧ y2 ≤ 1
  | _ => True

/-- C86. Before its start such a curve is exactly 0, after its end exactly 1. -/
theorem C86_ends (e : Easing) (h : Smooth e) (t : ℚ) : (t ≤ 0 → e.eval t = 0) ∧ (1 ≤ t → e.eval t = 1) := by
  have c0 : t ≤ 0 → clampQ t 0 1 = 0 := by
    intro ht; unfold clampQ; split_ifs <;> linarith
  have c1 : 1 ≤ t → clampQ t 0 1 = 1 := by
    intro ht; unfold clampQ; split_ifs <;> linarith
  constructor
  · intro ht
    cases e <;> simp only [Smooth] at h <;> simp only [Easing.eval, c0 ht] <;>
      first | norm_num [cubicBezier, elastic, bounce] | exact h.elim
  · intro ht
    cases e <;> simp only [Smooth] at h <;> simp only [Easing.eval, c1 ht] <;>
      first | norm_num [cubicBezier, elastic, bounce] | exact h.elim

/-- C86. It stays between 0 and 1, for every input. -/
theorem C86_range (e : Easing) (h : InRange e) (t : ℚ) : 0 ≤ e.eval t ∧ e.eval t ≤ 1 := by
  have h0 := clampQ_low t
  have h1 := clampQ_high t
  cases e <;> simp only [Easing.eval]
  case linear => exact ⟨h0, h1⟩
  case smoothstep =>
    have a := C84_default.low _ h0 h1
    have b := C84_default.high _ h0 h1
    simp only [Easing.eval] at a b
    rw [clampQ_id h0 h1] at a b
    exact ⟨a, b⟩
  case ease => exact cubicBezier_range _ (by norm_num) (by norm_num) (by norm_num) (by norm_num)
  case easeIn => exact cubicBezier_range _ (by norm_num) (by norm_num) (by norm_num) (by norm_num)
  case easeOut => exact cubicBezier_range _ (by norm_num) (by norm_num) (by norm_num) (by norm_num)
  case easeInOut => exact cubicBezier_range _ (by norm_num) (by norm_num) (by norm_num) (by norm_num)
  case cubicBezier x1 y1 x2 y2 => exact cubicBezier_range _ h.1 h.2.1 h.2.2.1 h.2.2.2
  case steps n pos => exact steps_range _ _ _
  case bounce => exact bounce_range h0 h1
  case elastic => exact h.elim
  case custom => exact h.elim

/-- C86. Linear, smooth-step and stepped curves never fall. -/
theorem C86_rises (e : Easing) (h : e = .linear ∨ e = .smoothstep ∨ ∃ n pos, e = .steps n pos) (s t : ℚ) (hst : s ≤ t) :
    e.eval s ≤ e.eval t := by
  have hc := clampQ_mono hst
  rcases h with rfl | rfl | ⟨n, pos, rfl⟩
  · exact hc
  · have := C84_default.rises _ _ (clampQ_low s) hc (clampQ_high t)
    simp only [Easing.eval] at this ⊢
    rwa [clampQ_id (clampQ_low s) (clampQ_high s), clampQ_id (clampQ_low t) (clampQ_high t)] at this
  · exact steps_mono n pos hc

/-- C86. A Bézier curve is followed to within a millionth: the value at time `t` is the height of a point of the curve whose
time is less than a millionth away from `t`. -/
theorem C86_bezier (x1 y1 x2 y2 t : ℚ) (hx1 : 0 ≤ x1) (hx1' : x1 ≤ 1) (hx2 : 0 ≤ x2) (hx2' : x2 ≤ 1) (h0 : 0 ≤ t) (h1 : t ≤ 1) :
    ∃ s : ℚ, 0 ≤ s ∧ s ≤ 1 ∧ |bezier x1 x2 s - t| < 1 / 1000000 ∧
      (Easing.cubicBezier x1 y1 x2 y2).eval t = bezier y1 y2 s := by
  have hc := clampQ_id h0 h1
  rcases eq_or_lt_of_le h0 with rfl | h0
  · refine ⟨0, le_rfl, zero_le_one, by norm_num [bezier], ?_⟩
    rw [(C86_ends (.cubicBezier x1 y1 x2 y2) trivial 0).1 le_rfl]
    norm_num [bezier]
  · rcases eq_or_lt_of_le h1 with rfl | h1
    · refine ⟨1, zero_le_one, le_rfl, by norm_num [bezier], ?_⟩
      rw [(C86_ends (.cubicBezier x1 y1 x2 y2) trivial 1).2 le_rfl]
      norm_num [bezier]
    · obtain ⟨s, s0, s1, e, c⟩ := cubicBezier_param x1 y1 x2 y2 h0 h1
      refine ⟨s, s0, s1, c hx1 hx1' hx2 hx2', ?_⟩
      simp only [Easing.eval, hc]
      exact e

/-- C86. The named curves are the Bézier curves CSS gives them. -/
theorem C86_named (t : ℚ) :
    Easing.ease.eval t = (Easing.cubicBezier (1 / 4) (1 / 10) (1 / 4) 1).eval t ∧
    Easing.easeIn.eval t = (Easing.cubicBezier (42 / 100) 0 1 1).eval t ∧
    Easing.easeOut.eval t = (Easing.cubicBezier 0 0 (58 / 100) 1).eval t ∧
    Easing.easeInOut.eval t = (Easing.cubicBezier (42 / 100) 0 (58 / 100) 1).eval t := by
  refine ⟨?_, rfl, rfl, rfl⟩
  simp only [Easing.eval]
  norm_num

/-- C86. Over times at least two millionths apart a Bézier curve with control points between 0 and 1 does not fall. -/
theorem C86_bezier_rises (x1 y1 x2 y2 s t : ℚ) (hx1 : 0 ≤ x1) (hx1' : x1 ≤ 1) (hx2 : 0 ≤ x2) (hx2' : x2 ≤ 1) (hy1 : 0 ≤ y1)
    (hy1' : y1 ≤ 1) (hy2 : 0 ≤ y2) (hy2' : y2 ≤ 1) (h0 : 0 ≤ s) (hst : s + 2 / 1000000 ≤ t) (h1 : t ≤ 1) :
    (Easing.cubicBezier x1 y1 x2 y2).eval s ≤ (Easing.cubicBezier x1 y1 x2 y2).eval t := by
  obtain ⟨a, a0, a1, ac, ae⟩ := C86_bezier x1 y1 x2 y2 s hx1 hx1' hx2 hx2' h0 (by linarith)
  obtain ⟨b, b0, b1, bc, be⟩ := C86_bezier x1 y1 x2 y2 t hx1 hx1' hx2 hx2' (by linarith) h1
  rw [ae, be]
  rw [abs_lt] at ac bc
  rcases le_total a b with h | h
  · exact bezier_mono hy1 hy1' hy2 hy2' a0 h b1
  · have := bezier_mono hx1 hx1' hx2 hx2' b0 h a1
    linarith

/-- The curve `cubic-bezier(0.1, 0.7, 1, 0.1)` of the CSS specification's example meets the hypotheses; at 0 and 1 it is exact,
and in the middle it is somewhere in between. -/
example : 0 < (Easing.cubicBezier (1 / 10) (7 / 10) 1 (1 / 10)).eval (1 / 2) ∧
    (Easing.cubicBezier (1 / 10) (7 / 10) 1 (1 / 10)).eval (1 / 2) < 1 := by decide +kernel

example : (Easing.bounce.eval (1 / 2), (Easing.steps 4 .jumpEnd).eval (1 / 2)) = (49 / 64, 1 / 2) := by decide +kernel

/-! ## C87 -/

/-- C87. `steps()` has the value CSS gives it: for `jump-end`, `jump-none` and `jump-both` everywhere, for `jump-start` except at
the instants of the jumps (violated there, see below). -/
theorem C87_css_partial (n : Nat) (pos : StepPos) (t : ℚ) (hn : CssStepCount n pos) (h0 : 0 ≤ t) (h1 : t ≤ 1)
    (hs : pos = .jumpStart → ∀ k : Int, t * n ≠ k) : (Easing.steps n pos).eval t = cssSteps n pos t := by
  simp only [Easing.eval]
  rw [clampQ_id h0 h1]
  exact steps_css hn h0 hs

/-- C87 is violated by `jump-start`, whose first step should be there from the start: at 0 it is 0 for every number of steps,
where CSS wants `1 / n`. -/
theorem C87_jump_start_violated (n : Nat) (hn : 1 ≤ n) :
    (Easing.steps n .jumpStart).eval 0 = 0 ∧ cssSteps n .jumpStart 0 = 1 / n := by
  have hm : max n 1 = n := by omega
  constructor
  · have c : clampQ 0 0 1 = 0 := by decide +kernel
    simp [Easing.eval, c, steps]
  · simp only [cssSteps]
    have : min ((1 : Int)) n = 1 := by omega
    simp [this]

/-- and in the middle of a two-step curve it has a value CSS never gives it -/
example : (Easing.steps 2 .jumpStart).eval (1 / 2) = 1 / 2 ∧ cssSteps 2 .jumpStart (1 / 2) = 1 := by decide +kernel

example : CssStepCount 4 .jumpNone ∧ (Easing.steps 4 .jumpNone).eval (3 / 10) = 1 / 3 ∧
    (Easing.steps 4 .jumpBoth).eval (3 / 10) = 2 / 5 ∧ (Easing.steps 4 .jumpStart).eval (3 / 10) = 1 / 2 := by
  refine ⟨⟨by omega, by omega⟩, ?_⟩
  decide +kernel

/-! ## C88 -/

/-- C88. A spring with some damping, and not too much of it (`damping² + 2 stiffness < 500 damping`; the critically damped spring
of stiffness 170, for example, has a damping of 26), brings the tab to rest exactly where it was heading, after a bounded number of
frames, however irregular, if they are not arbitrarily short. Not covered: other springs (violated below). -/
theorem C88_settles_partial (k c δ : ℚ) (hk : 0 < k) (hc : 0 < c) (h : c ^ 2 + 2 * k < 500 * c) (hδ : 0 < δ)
    (before : List Event) :
    ∃ N : Nat, ∀ ts : List Event, N ≤ ts.length → (∀ x ∈ ts, ∃ dt lay, δ ≤ dt ∧ x = .tick dt lay) →
      let t := (Tab.new (.spring k c)).run before
      let t' := t.run ts
      t'.st.animating = false ∧ t'.st.pos = t.st.target ∧ t'.off = round2 t.st.target := by
  have sp : Sprung k c ((Tab.new (.spring k c)).run before).st := Sprung.run (Sprung.new k c) before
  have ok : ((Tab.new (.spring k c)).run before).Ok := Tab.Ok.run (Tab.Ok.new _) before
  generalize (Tab.new (.spring k c)).run before = t at *
  have hη : 0 < min δ (1 / 500) := lt_min hδ (by norm_num)
  have hη' : min δ (1 / 500) ≤ 1 / 250 := (min_le_right _ _).trans (by norm_num)
  obtain ⟨ρ1, r10, r11, s1⟩ := energy_share t.st.target.1 hk hc hη hη' h
  obtain ⟨ρ2, r20, r21, s2⟩ := energy_share t.st.target.2 hk hc hη hη' h
  obtain ⟨E, e0, he⟩ := energetic hk sp
  have hr : 0 ≤ max ρ1 ρ2 := r10.trans (le_max_left _ _)
  have hr1 : max ρ1 ρ2 < 1 := max_lt r11 r21
  have k1 : ∀ dt, δ ≤ dt → Shrinks k c t.st.target.1 (max ρ1 ρ2) (frameH dt) := fun dt hd p m =>
    (s1 p _ m (frameH_ge hδ hd) (frameH_le dt)).trans
      (mul_le_mul_of_nonneg_right (le_max_left _ _) (energy_nonneg _ hk p))
  have k2 : ∀ dt, δ ≤ dt → Shrinks k c t.st.target.2 (max ρ1 ρ2) (frameH dt) := fun dt hd p m =>
    (s2 p _ m (frameH_ge hδ hd) (frameH_le dt)).trans
      (mul_le_mul_of_nonneg_right (le_max_right _ _) (energy_nonneg _ hk p))
  have hb : 0 < min (1 / 16) (k / 16) := lt_min (by norm_num) (by positivity)
  obtain ⟨n, hn⟩ := exists_pow_lt_of_lt_one (div_pos hb (by linarith : 0 < E + 1)) hr1
  rw [lt_div_iff₀ (by linarith)] at hn
  have hp := pow_nonneg hr n
  refine ⟨n + 1, fun ts hl hts => ?_⟩
  have hd : ∀ x ∈ ts, Drawing x := fun x hx => by
    obtain ⟨dt, lay, -, r⟩ := hts x hx
    exact ⟨dt, lay, r⟩
  have rest : (t.run ts).st.anim = none :=
    spring_lands hk hr hr1 n ts t E sp he e0 k1 k2
      (by have := min_le_left (1 / 16) (k / 16); linarith) (by have := min_le_right (1 / 16) (k / 16); linarith) (by omega) hts
  have ok' : (t.run ts).Ok := ok.run ts
  have tg : (t.run ts).st.target = t.st.target := draws_target hd
  have hpos := (ok'.sound.rest rest).trans tg
  exact ⟨by simp [State.animating, rest], hpos, by rw [ok'.off, hpos]⟩

example : (0 : ℚ) < 170 ∧ (0 : ℚ) < 26 ∧ (26 : ℚ) ^ 2 + 2 * 170 < 500 * 26 := by norm_num

/-- a request that ends at rest, with such a spring -/
example : ((sampleTab (.spring 170 26)).run (.wheel 0 1 :: List.replicate 30 (.tick (1 / 60) none))).st.animating = false := by
  decide +kernel

/-- the state of an undamped spring some frames after a request for 100 px -/
def Swinging (dt : ℚ) (s : State) : Prop :=
  s.target.2 = 100 ∧ ∃ px py, s.anim = some (.spring px, .spring py) ∧ Kind 100 0 py ∧ 101 ≤ invariant 100 100 (frameH dt) py

theorem frameH_nonneg {dt : ℚ} : 0 ≤ frameH dt := by
  unfold frameH
  apply div_nonneg
  · unfold clampQ; split_ifs <;> linarith
  · exact_mod_cast Nat.zero_le _

theorem Swinging.tick {dt : ℚ} {s : State} (h : Swinging dt s) : Swinging dt (s.tick dt).1 := by
  obtain ⟨ht, px, py, hs, kp, hi⟩ := h
  have h250 := frameH_le dt
  have ms := Made.subs (h := frameH dt) (subCount (clampQ dt 0 (64 / 1000))) (kp.aimed 100)
  have inv := invariant_subs (h := frameH dt) (subCount (clampQ dt 0 (64 / 1000))) (kp.aimed 100)
  have i0 : invariant 100 100 (frameH dt) { py with target := 100 } = invariant 100 100 (frameH dt) py := rfl
  rw [i0] at inv
  have ns := no_snap (k := 100) (g := 100) (h := frameH dt) (by norm_num) frameH_nonneg ms.target
    (by rw [inv]; linarith)
  have se := step_eq py 100 dt
  rw [ns.1] at se
  refine ⟨(congrArg Prod.snd (tick_target s dt)).trans ht, ?_⟩
  simp only [State.tick, hs, Anim.step, Anim.settled, ht]
  rw [se, ns.2]
  simp only [Bool.and_false, Bool.false_eq_true, if_false]
  exact ⟨_, _, rfl, ms.kind, by rw [inv]; exact hi⟩

/-- C88 is violated by a spring without damping: after a request for 100 px the tab never comes to rest, at any frame rate. -/
theorem C88_undamped_violated (dt : ℚ) (n : Nat) :
    ((sampleTab (.spring 100 0)).run (.wheel 0 100 :: List.replicate n (.tick dt none))).st.animating = true := by
  have key : ∀ (n : Nat) (t : Tab), Swinging dt t.st → (t.run (List.replicate n (.tick dt none))).st.animating = true := by
    intro n
    induction n with
    | zero =>
      intro t h
      obtain ⟨-, px, py, hs, -⟩ := h
      show t.st.animating = true
      simp [State.animating, hs]
    | succ n ih =>
      intro t h
      refine ih (t.step (.tick dt none)) ?_
      have : (t.step (.tick dt none)).st = (t.st.tick dt).1 := tick_st _ _ _
      rw [this]
      exact h.tick
  refine key n ((sampleTab (.spring 100 0)).step (.wheel 0 100)) ?_
  refine ⟨by decide +kernel, Spring.new 0 100 0, Spring.new 0 100 0, rfl, Kind.new _ _ _, ?_⟩
  simp only [invariant, Spring.new]
  norm_num

/-- the state of an overdamped spring some frames after a request for 100 px: faster and faster -/
def Diverging (s : State) : Prop :=
  s.target.2 = 100 ∧ ∃ px py, s.anim = some (.spring px, .spring py) ∧ Kind 100 1000 py ∧ 40 ≤ |py.velocity| ∧
    |py.current - 100| ≤ 100 + 9 / 1000 * |py.velocity|

theorem Diverging.tick {s : State} (h : Diverging s) : Diverging (s.tick (1 / 250)).1 ∧
    ∀ px py, s.anim = some (.spring px, .spring py) → ∃ qx qy, (s.tick (1 / 250)).1.anim = some (.spring qx, .spring qy) ∧
      19 / 10 * |py.velocity| ≤ |qy.velocity| := by
  obtain ⟨ht, px, py, hs, kp, hv, hy⟩ := h
  have hstep : py.step 100 (1 / 250) = (({ py with target := 100 } : Spring).sub (1 / 250)).snap := by
    have e1 : clampQ (1 / 250) 0 (64 / 1000) = 1 / 250 := by decide +kernel
    have e2 : subCount (1 / 250) = 1 := by decide +kernel
    simp only [Spring.step, e1, e2, Spring.subs]
    norm_num
  have vel : (({ py with target := 100 } : Spring).sub (1 / 250)).velocity = -3 * py.velocity - 2 / 5 * (py.current - 100) := by
    simp only [Spring.sub, kp.stiffness, kp.damping, kp.mass]; ring
  have cur : (({ py with target := 100 } : Spring).sub (1 / 250)).current - 100 = (py.current - 100) +
      1 / 250 * (-3 * py.velocity - 2 / 5 * (py.current - 100)) := by
    simp only [Spring.sub, kp.stiffness, kp.damping, kp.mass]; ring
  have tgt : (({ py with target := 100 } : Spring).sub (1 / 250)).target = 100 := rfl
  have kind : Kind 100 1000 (({ py with target := 100 } : Spring).sub (1 / 250)) := ⟨kp.stiffness, kp.damping, kp.mass⟩
  generalize ({ py with target := 100 } : Spring).sub (1 / 250) = q at *
  have grow : 19 / 10 * |py.velocity| ≤ |q.velocity| := by
    rw [vel]
    have : |3 * py.velocity| ≤ |-3 * py.velocity - 2 / 5 * (py.current - 100)| + |2 / 5 * (py.current - 100)| := by
      have := abs_sub (-3 * py.velocity - 2 / 5 * (py.current - 100)) (-(2 / 5 * (py.current - 100)))
      rw [abs_neg] at this
      have e : -3 * py.velocity - 2 / 5 * (py.current - 100) - -(2 / 5 * (py.current - 100)) = -(3 * py.velocity) := by ring
      rw [e, abs_neg] at this
      exact this
    rw [abs_mul, abs_mul] at this
    have a3 : |(3 : ℚ)| = 3 := by norm_num
    have a25 : |(2 / 5 : ℚ)| = 2 / 5 := by norm_num
    rw [a3, a25] at this
    linarith
  have big : 40 ≤ |q.velocity| := by linarith
  have far : |q.current - 100| ≤ 100 + 9 / 1000 * |q.velocity| := by
    have e : q.current - 100 = (py.current - 100) + 1 / 250 * q.velocity := by rw [cur, vel]
    rw [e]
    have := abs_add_le (py.current - 100) (1 / 250 * q.velocity)
    rw [abs_mul (1 / 250 : ℚ)] at this
    have a : |(1 / 250 : ℚ)| = 1 / 250 := by norm_num
    rw [a] at this
    linarith
  have nosnap : q.snap = q := by
    unfold Spring.snap
    rw [if_neg (by rintro ⟨-, b⟩; linarith)]
  have noset : q.settled = false := by
    unfold Spring.settled
    rw [decide_eq_false_iff_not]
    rintro ⟨-, b⟩
    rw [b] at big
    norm_num at big
  rw [nosnap] at hstep
  have anim : (s.tick (1 / 250)).1.anim = some (.spring (px.step s.target.1 (1 / 250)), .spring q) := by
    simp only [State.tick, hs, Anim.step, Anim.settled, ht]
    rw [hstep, noset]
    simp
  refine ⟨⟨(congrArg Prod.snd (tick_target s _)).trans ht, _, _, anim, kind, big, far⟩, ?_⟩
  intro px' py' hs'
  rw [hs] at hs'
  cases hs'
  exact ⟨_, _, anim, grow⟩

/-- C88 is violated by a spring with too much damping (1000, at a stiffness of 100): at 250 frames a second the tab never comes
to rest either; its velocity grows without bound. -/
theorem C88_overdamped_violated (n : Nat) :
    ∃ px py, ((sampleTab (.spring 100 1000)).run (.wheel 0 100 :: List.replicate (n + 1) (.tick (1 / 250) none))).st.anim =
      some (.spring px, .spring py) ∧ (40 : ℚ) * (19 / 10) ^ n ≤ |py.velocity| := by
  have key : ∀ (n : Nat) (t : Tab) (v : ℚ), Diverging t.st → (∀ px py, t.st.anim = some (.spring px, .spring py) → v ≤ |py.velocity|) →
      ∃ px py, (t.run (List.replicate n (.tick (1 / 250) none))).st.anim = some (.spring px, .spring py) ∧
        v * (19 / 10) ^ n ≤ |py.velocity| := by
    intro n
    induction n with
    | zero =>
      intro t v h hv
      obtain ⟨-, px, py, hs, -⟩ := h
      exact ⟨px, py, hs, by rw [pow_zero, mul_one]; exact hv px py hs⟩
    | succ n ih =>
      intro t v h hv
      have st : (t.step (.tick (1 / 250) none)).st = (t.st.tick (1 / 250)).1 := tick_st _ _ _
      have := ih (t.step (.tick (1 / 250) none)) (v * (19 / 10)) (by rw [st]; exact h.tick.1) (by
        intro qx qy hq
        rw [st] at hq
        obtain ⟨-, px, py, hs, -⟩ := id h
        obtain ⟨qx', qy', hq', g⟩ := h.tick.2 px py hs
        rw [hq'] at hq
        cases hq
        have := hv px py hs
        linarith)
      obtain ⟨px, py, e, g⟩ := this
      refine ⟨px, py, e, ?_⟩
      rw [pow_succ]
      linarith
  have first : ∃ px py, ((sampleTab (.spring 100 1000)).run [.wheel 0 100, .tick (1 / 250) none]).st.anim =
      some (.spring px, .spring py) ∧ py.velocity = 40 ∧ py.current = 16 / 100 ∧ Kind 100 1000 py := by
    let s := ((sampleTab (.spring 100 1000)).step (.wheel 0 100)).st
    have ht : s.target = (0, 100) := by decide +kernel
    have hs : s.anim = some (.spring (Spring.new 0 100 1000), .spring (Spring.new 0 100 1000)) := rfl
    have ns : (((Anim.spring (Spring.new 0 100 1000)).step 0 (1 / 250)).settled &&
        ((Anim.spring (Spring.new 0 100 1000)).step 100 (1 / 250)).settled) = false := by decide +kernel
    have ha : (s.tick (1 / 250)).1.anim = some (.spring ((Spring.new 0 100 1000).step 0 (1 / 250)),
        .spring ((Spring.new 0 100 1000).step 100 (1 / 250))) := by
      simp only [State.tick, hs, ht, ns, Bool.false_eq_true, if_false]
      rfl
    refine ⟨(Spring.new 0 100 1000).step 0 (1 / 250), (Spring.new 0 100 1000).step 100 (1 / 250), ?_, by decide +kernel,
      by decide +kernel, by decide +kernel, by decide +kernel, by decide +kernel⟩
    have : ((sampleTab (.spring 100 1000)).run [.wheel 0 100, .tick (1 / 250) none]).st = (s.tick (1 / 250)).1 := tick_st _ _ _
    rw [this, ha]
  obtain ⟨px, py, hs, hv, hc, kp⟩ := first
  have hd : Diverging ((sampleTab (.spring 100 1000)).run [.wheel 0 100, .tick (1 / 250) none]).st := by
    refine ⟨by decide +kernel, px, py, hs, kp, ?_, ?_⟩
    · rw [hv]; norm_num
    · rw [hv, hc]; norm_num [abs_of_neg, abs_of_pos]
  have := key n _ 40 hd (by
    intro px' py' h'
    rw [hs] at h'
    cases h'
    rw [hv]; norm_num)
  exact this

end Verif.Scroll
