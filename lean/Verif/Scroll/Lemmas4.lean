import Verif.Scroll.Lemmas3
import Mathlib.Algebra.Order.Archimedean.Basic

/-! # Steps and springs -/

namespace Verif.Scroll

/-! ## steps -/

theorem clamp_div {a b : Int} (ha : 0 ≤ a) (hb : 0 < b) : clampQ ((a : ℚ) / b) 0 1 = ((min a b : Int) : ℚ) / b := by
  have hb' : (0 : ℚ) < b := by exact_mod_cast hb
  have ha' : (0 : ℚ) ≤ a := by exact_mod_cast ha
  unfold clampQ
  rw [if_neg (not_lt.2 (div_nonneg ha' (le_of_lt hb')))]
  split_ifs with h
  · rw [lt_div_iff₀ hb', one_mul] at h
    have : b ≤ a := by exact_mod_cast le_of_lt h
    rw [min_eq_right this, div_self (ne_of_gt hb')]
  · rw [lt_div_iff₀ hb', one_mul, not_lt] at h
    have : a ≤ b := by exact_mod_cast h
    rw [min_eq_left this]

theorem steps_css {n : Nat} {pos : StepPos} {t : ℚ} (hn : CssStepCount n pos) (h0 : 0 ≤ t)
    (hs : pos = .jumpStart → ∀ k : Int, t * n ≠ k) : steps n pos t = cssSteps n pos t := by
  obtain ⟨h1, h2⟩ := hn
  have hm : max n 1 = n := by omega
  have hnz : (0 : Int) < n := by omega
  have hf : 0 ≤ ⌊t * (n : ℚ)⌋ := Int.floor_nonneg.2 (mul_nonneg h0 (by exact_mod_cast Nat.zero_le n))
  cases pos with
  | jumpStart =>
    have hc : ⌈t * (n : ℚ)⌉ = ⌊t * (n : ℚ)⌋ + 1 := by
      rw [Int.ceil_eq_iff]
      have a := Int.floor_le (t * (n : ℚ))
      have b := Int.lt_floor_add_one (t * (n : ℚ))
      have c : t * (n : ℚ) ≠ ⌊t * (n : ℚ)⌋ := hs rfl _
      push_cast
      constructor
      · have := lt_of_le_of_ne a (Ne.symm c); linarith
      · linarith
    simp only [steps, cssSteps, hm, hc]
    have := clamp_div (a := ⌊t * (n : ℚ)⌋ + 1) (b := n) (by omega) hnz
    simpa using this
  | jumpEnd =>
    simp only [steps, cssSteps, hm]
    have := clamp_div (a := ⌊t * (n : ℚ)⌋) (b := n) hf hnz
    simpa using this
  | jumpNone =>
    have h2 := h2 rfl
    have hq : max ((n : ℚ) - 1) 1 = ((n : Int) - 1 : Int) := by
      push_cast
      have : (2 : ℚ) ≤ n := by exact_mod_cast h2
      exact max_eq_left (by linarith)
    simp only [steps, cssSteps, hm, hq]
    have := clamp_div (a := ⌊t * (n : ℚ)⌋) (b := n - 1) hf (by omega)
    simpa using this
  | jumpBoth =>
    simp only [steps, cssSteps, hm]
    have := clamp_div (a := ⌊t * (n : ℚ)⌋ + 1) (b := n + 1) (by omega) (by omega)
    simpa using this

/-! ## springs -/

theorem sub_target (p : Spring) (h : ℚ) : (p.sub h).target = p.target := rfl
theorem sub_stiffness (p : Spring) (h : ℚ) : (p.sub h).stiffness = p.stiffness := rfl
theorem sub_damping (p : Spring) (h : ℚ) : (p.sub h).damping = p.damping := rfl
theorem sub_mass (p : Spring) (h : ℚ) : (p.sub h).mass = p.mass := rfl

/-- a spring of the given make, pulled towards `g` -/
structure Made (k c g : ℚ) (p : Spring) : Prop where
  stiffness : p.stiffness = k
  damping : p.damping = c
  mass : p.mass = 1
  target : p.target = g

theorem Made.sub {k c g : ℚ} {p : Spring} (m : Made k c g p) (h : ℚ) : Made k c g (p.sub h) :=
  ⟨m.stiffness, m.damping, m.mass, m.target⟩

theorem Made.subs {k c g h : ℚ} : ∀ (n : Nat) {p : Spring}, Made k c g p → Made k c g (p.subs h n)
  | 0, _, m => m
  | n + 1, _, m => Made.subs n (m.sub h)

theorem Made.snap {k c g : ℚ} {p : Spring} (m : Made k c g p) : Made k c g p.snap := by
  unfold Spring.snap; split
  · exact ⟨m.stiffness, m.damping, m.mass, m.target⟩
  · exact m

/-- the frame's sub-step -/
def frameH (dt : ℚ) : ℚ := clampQ dt 0 (64 / 1000) / subCount (clampQ dt 0 (64 / 1000))

theorem subCount_pos (dt : ℚ) : 0 < subCount dt := by
  unfold subCount; omega

/-- sub-steps take at most 4 ms -/
theorem frameH_le (dt : ℚ) : frameH dt ≤ 1 / 250 := by
  unfold frameH
  generalize clampQ dt 0 (64 / 1000) = x
  have hp : (0 : ℚ) < subCount x := by exact_mod_cast subCount_pos x
  rw [div_le_iff₀ hp]
  have h1 : x / (4 / 1000) ≤ (⌈x / (4 / 1000)⌉ : Int) := Int.le_ceil _
  have h2 : ⌈x / (4 / 1000)⌉ ≤ ((subCount x : Nat) : Int) := by unfold subCount; omega
  have h3 : ((⌈x / (4 / 1000)⌉ : Int) : ℚ) ≤ (subCount x : ℚ) := by exact_mod_cast h2
  rw [div_le_iff₀ (by norm_num)] at h1
  linarith

/-- and not less than 2 ms, or the whole frame -/
theorem frameH_ge {dt δ : ℚ} (h0 : 0 < δ) (hd : δ ≤ dt) : min δ (1 / 500) ≤ frameH dt := by
  unfold frameH
  have hx : min δ (64 / 1000) ≤ clampQ dt 0 (64 / 1000) := by
    unfold clampQ
    rw [if_neg (by linarith)]
    split
    · exact min_le_right _ _
    · exact (min_le_left _ _).trans hd
  have hm : min δ (1 / 500) ≤ min δ (64 / 1000) := min_le_min le_rfl (by norm_num)
  have hm0 : 0 < min δ (1 / 500) := lt_min h0 (by norm_num)
  generalize clampQ dt 0 (64 / 1000) = x at *
  have hx0 : 0 < x := by linarith
  have hp : (0 : ℚ) < subCount x := by exact_mod_cast subCount_pos x
  rw [le_div_iff₀ hp]
  have h1 : ((⌈x / (4 / 1000)⌉ : Int) : ℚ) < x / (4 / 1000) + 1 := Int.ceil_lt_add_one _
  by_cases hs : x ≤ 4 / 1000
  · have : subCount x = 1 := by
      have : ⌈x / (4 / 1000)⌉ ≤ 1 := by
        rw [Int.ceil_le]
        rw [div_le_iff₀ (by norm_num)]
        push_cast; linarith
      unfold subCount; omega
    rw [this]
    push_cast; linarith
  · have hge : (1 : Int) ≤ ⌈x / (4 / 1000)⌉ := by
      rw [Int.one_le_ceil_iff]; positivity
    have e : ((subCount x : Nat) : Int) = ⌈x / (4 / 1000)⌉ := by unfold subCount; omega
    have e' : (subCount x : ℚ) = (⌈x / (4 / 1000)⌉ : Int) := by exact_mod_cast congrArg (Int.cast (R := ℚ)) e
    have hd4 : x / (4 / 1000) = 250 * x := by rw [div_eq_iff (by norm_num)]; ring
    have h500 : min δ (1 / 500) ≤ 1 / 500 := min_le_right _ _
    rw [e']
    rw [hd4] at h1 ⊢
    rw [not_le] at hs
    have hcp : (0 : ℚ) ≤ (⌈250 * x⌉ : Int) := by linarith [Int.le_ceil (250 * x)]
    have := mul_le_mul_of_nonneg_right h500 hcp
    linarith

/-- kinetic plus potential energy, twice -/
def energy (k g : ℚ) (p : Spring) : ℚ := p.velocity ^ 2 + k * (p.current - g) ^ 2

theorem energy_nonneg {k : ℚ} (g : ℚ) (hk : 0 < k) (p : Spring) : 0 ≤ energy k g p := by
  unfold energy; positivity

theorem energy_sub {k c g h : ℚ} {p : Spring} (m : Made k c g p) :
    energy k g p - energy k g (p.sub h) =
      h * ((2 * c - h * c ^ 2) * p.velocity ^ 2 + h * k ^ 2 * (p.current - g) ^ 2 -
        h * k * ((1 - h * c) * p.velocity - h * k * (p.current - g)) ^ 2) := by
  unfold energy Spring.sub
  simp only [m.stiffness, m.damping, m.mass, m.target]
  ring

theorem energy_loss {k c h v y : ℚ} (hk : 0 < k) (hc : 0 < c) (h0 : 0 < h) (h1 : h * (c ^ 2 + 2 * k) < 2 * c) :
    h * (2 * c - h * (c ^ 2 + 2 * k)) * v ^ 2 + h ^ 2 * k * (1 - 2 * h ^ 2 * k) * (k * y ^ 2) ≤
      h * ((2 * c - h * c ^ 2) * v ^ 2 + h * k ^ 2 * y ^ 2 - h * k * ((1 - h * c) * v - h * k * y) ^ 2) := by
  have hc2 : h * c ≤ 2 := by
    have : h * c * c < 2 * c := by nlinarith [mul_pos h0 hk]
    exact le_of_lt (lt_of_mul_lt_mul_right this (le_of_lt hc))
  have sq1 : (1 - h * c) ^ 2 ≤ 1 := by nlinarith [mul_pos h0 hc]
  have par : ((1 - h * c) * v - h * k * y) ^ 2 ≤ 2 * ((1 - h * c) ^ 2 * v ^ 2) + 2 * (h ^ 2 * k ^ 2 * y ^ 2) := by
    nlinarith [sq_nonneg ((1 - h * c) * v + h * k * y)]
  have par2 : (1 - h * c) ^ 2 * v ^ 2 ≤ v ^ 2 := by
    have := mul_le_mul_of_nonneg_right sq1 (sq_nonneg v); linarith
  have hh : 0 ≤ h * (h * k) := by positivity
  have key := mul_le_mul_of_nonneg_left (par.trans (by linarith : _ ≤ 2 * v ^ 2 + 2 * (h ^ 2 * k ^ 2 * y ^ 2))) hh
  nlinarith [key]

theorem damp_bound {k c h : ℚ} (hk : 0 < k) (hc : 0 < c) (h0 : 0 < h) (h1 : h * (c ^ 2 + 2 * k) < 2 * c) :
    2 * h ^ 2 * k < 1 := by
  have : h * (h * (c ^ 2 + 2 * k)) < h * (2 * c) := mul_lt_mul_of_pos_left h1 h0
  nlinarith [sq_nonneg (h * c - 1)]

/-- every sub-step of at least `η` and at most 4 ms takes away a fixed share of the energy -/
theorem energy_share {k c η : ℚ} (g : ℚ) (hk : 0 < k) (hc : 0 < c) (h0 : 0 < η) (hη : η ≤ 1 / 250) (h1 : c ^ 2 + 2 * k < 500 * c) :
    ∃ ρ : ℚ, 0 ≤ ρ ∧ ρ < 1 ∧ ∀ (p : Spring) (h : ℚ), Made k c g p → η ≤ h → h ≤ 1 / 250 →
      energy k g (p.sub h) ≤ ρ * energy k g p := by
  have b0 : 1 / 250 * (c ^ 2 + 2 * k) < 2 * c := by linarith
  have db := damp_bound hk hc (by norm_num) b0
  have A0 : 0 < η * (2 * c - 1 / 250 * (c ^ 2 + 2 * k)) := mul_pos h0 (by linarith)
  have B0 : 0 < η ^ 2 * k * (1 - 2 * (1 / 250) ^ 2 * k) := by
    have : 0 < 1 - 2 * (1 / 250) ^ 2 * k := by linarith
    positivity
  have hB1 : η ^ 2 * k * (1 - 2 * (1 / 250) ^ 2 * k) < 1 := by
    have e1 : η ^ 2 * k ≤ (1 / 250) ^ 2 * k := by
      apply mul_le_mul_of_nonneg_right _ (le_of_lt hk)
      exact pow_le_pow_left₀ (le_of_lt h0) hη 2
    have e2 : 1 - 2 * (1 / 250) ^ 2 * k ≤ 1 := by nlinarith
    have : η ^ 2 * k * (1 - 2 * (1 / 250) ^ 2 * k) ≤ η ^ 2 * k * 1 := mul_le_mul_of_nonneg_left e2 (by positivity)
    linarith
  refine ⟨1 - min (η * (2 * c - 1 / 250 * (c ^ 2 + 2 * k))) (η ^ 2 * k * (1 - 2 * (1 / 250) ^ 2 * k)), ?_, ?_, ?_⟩
  · have := min_le_right (η * (2 * c - 1 / 250 * (c ^ 2 + 2 * k))) (η ^ 2 * k * (1 - 2 * (1 / 250) ^ 2 * k))
    linarith
  · have := lt_min A0 B0
    linarith
  · intro p h m hl hu
    have hp : 0 < h := by linarith
    have b1 : h * (c ^ 2 + 2 * k) < 2 * c := by
      have : h * (c ^ 2 + 2 * k) ≤ 1 / 250 * (c ^ 2 + 2 * k) := mul_le_mul_of_nonneg_right hu (by positivity)
      linarith
    have e := energy_sub (h := h) m
    have l := energy_loss (v := p.velocity) (y := p.current - g) hk hc hp b1
    rw [← e] at l
    have A : η * (2 * c - 1 / 250 * (c ^ 2 + 2 * k)) ≤ h * (2 * c - h * (c ^ 2 + 2 * k)) := by
      have q : h * (c ^ 2 + 2 * k) ≤ 1 / 250 * (c ^ 2 + 2 * k) := mul_le_mul_of_nonneg_right hu (by positivity)
      exact mul_le_mul hl (by linarith) (by linarith) (le_of_lt hp)
    have B : η ^ 2 * k * (1 - 2 * (1 / 250) ^ 2 * k) ≤ h ^ 2 * k * (1 - 2 * h ^ 2 * k) := by
      have q1 : η ^ 2 ≤ h ^ 2 := pow_le_pow_left₀ (le_of_lt h0) hl 2
      have q2 : h ^ 2 ≤ (1 / 250) ^ 2 := pow_le_pow_left₀ (le_of_lt hp) hu 2
      have q3 := mul_le_mul_of_nonneg_right q1 (le_of_lt hk)
      have q4 := mul_le_mul_of_nonneg_right q2 (le_of_lt hk)
      exact mul_le_mul q3 (by linarith) (by linarith) (by positivity)
    have hE : energy k g p = p.velocity ^ 2 + k * (p.current - g) ^ 2 := rfl
    have mA := min_le_left (η * (2 * c - 1 / 250 * (c ^ 2 + 2 * k))) (η ^ 2 * k * (1 - 2 * (1 / 250) ^ 2 * k))
    have mB := min_le_right (η * (2 * c - 1 / 250 * (c ^ 2 + 2 * k))) (η ^ 2 * k * (1 - 2 * (1 / 250) ^ 2 * k))
    generalize min (η * (2 * c - 1 / 250 * (c ^ 2 + 2 * k))) (η ^ 2 * k * (1 - 2 * (1 / 250) ^ 2 * k)) = δ at *
    have nV : 0 ≤ p.velocity ^ 2 := sq_nonneg _
    have nY : 0 ≤ k * (p.current - g) ^ 2 := by positivity
    generalize p.velocity ^ 2 = V at *
    generalize k * (p.current - g) ^ 2 = Y at *
    have k1 := mul_le_mul_of_nonneg_right (mA.trans A) nV
    have k2 := mul_le_mul_of_nonneg_right (mB.trans B) nY
    rw [hE] at l ⊢
    linarith

/-- what `energy_share` gives, for sub-steps of length `h` -/
def Shrinks (k c g ρ h : ℚ) : Prop := ∀ p : Spring, Made k c g p → energy k g (p.sub h) ≤ ρ * energy k g p

theorem energy_subs {k c g h ρ : ℚ} (hr : 0 ≤ ρ) (hs : Shrinks k c g ρ h) :
    ∀ (n : Nat) {p : Spring}, Made k c g p → energy k g (p.subs h n) ≤ ρ ^ n * energy k g p
  | 0, p, _ => by simp [Spring.subs]
  | n + 1, p, m => by
    have a := energy_subs hr hs n (m.sub h)
    have b := mul_le_mul_of_nonneg_left (hs p m) (pow_nonneg hr n)
    simp only [Spring.subs]
    rw [pow_succ]
    linarith

theorem snap_energy {k g : ℚ} {p : Spring} (hk : 0 < k) (ht : p.target = g) : energy k g p.snap ≤ energy k g p := by
  unfold Spring.snap; split
  · have : energy k g { p with current := p.target, velocity := 0 } = 0 := by simp [energy, ht]
    rw [this]; exact energy_nonneg g hk p
  · exact le_rfl

theorem snap_small {k g : ℚ} {p : Spring} (hk : 0 < k) (ht : p.target = g)
    (hv : energy k g p < 1 / 16) (hy : energy k g p < k / 16) : p.snap.current = g ∧ p.snap.velocity = 0 := by
  have n1 : 0 ≤ p.velocity ^ 2 := sq_nonneg _
  have n2 : 0 ≤ k * (p.current - g) ^ 2 := by positivity
  unfold energy at hv hy
  have y2 : (p.current - g) ^ 2 < 1 / 16 := by
    have : k * (p.current - g) ^ 2 < k * (1 / 16) := by linarith
    exact lt_of_mul_lt_mul_left this (le_of_lt hk)
  have v1 : |p.velocity| < 25 / 100 := by
    apply abs_lt_of_sq_lt_sq _ (by norm_num)
    linarith
  have y1 : |p.current - p.target| < 25 / 100 := by
    rw [ht]
    apply abs_lt_of_sq_lt_sq _ (by norm_num)
    linarith
  unfold Spring.snap
  rw [if_pos ⟨y1, v1⟩]
  exact ⟨ht, rfl⟩

theorem step_eq (p : Spring) (g dt : ℚ) :
    p.step g dt = (({ p with target := g } : Spring).subs (frameH dt) (subCount (clampQ dt 0 (64 / 1000)))).snap := rfl

/-- a spring of the given make -/
structure Kind (k c : ℚ) (p : Spring) : Prop where
  stiffness : p.stiffness = k
  damping : p.damping = c
  mass : p.mass = 1

theorem Kind.aimed {k c : ℚ} {p : Spring} (m : Kind k c p) (g : ℚ) : Made k c g { p with target := g } :=
  ⟨m.stiffness, m.damping, m.mass, rfl⟩

theorem step_made {k c : ℚ} {p : Spring} (m : Kind k c p) (g dt : ℚ) : Made k c g (p.step g dt) := by
  rw [step_eq]
  exact Made.snap (Made.subs _ (m.aimed g))

theorem Made.kind {k c g : ℚ} {p : Spring} (m : Made k c g p) : Kind k c p := ⟨m.stiffness, m.damping, m.mass⟩

theorem aimed_energy (k g : ℚ) (p : Spring) : energy k g { p with target := g } = energy k g p := rfl

theorem step_energy {k c g dt ρ : ℚ} (hk : 0 < k) (hr : 0 ≤ ρ) (hr1 : ρ < 1) (hs : Shrinks k c g ρ (frameH dt))
    {p : Spring} (m : Kind k c p) : energy k g (p.step g dt) ≤ ρ * energy k g p := by
  rw [step_eq]
  have e0 := energy_nonneg g hk p
  have ms := Made.subs (h := frameH dt) (subCount (clampQ dt 0 (64 / 1000))) (m.aimed g)
  have es := energy_subs hr hs (subCount (clampQ dt 0 (64 / 1000))) (m.aimed g)
  refine (snap_energy hk ms.target).trans (es.trans ?_)
  rw [aimed_energy]
  refine mul_le_mul_of_nonneg_right ?_ e0
  have hn := subCount_pos (clampQ dt 0 (64 / 1000))
  generalize subCount (clampQ dt 0 (64 / 1000)) = n at *
  obtain ⟨n, rfl⟩ : ∃ j, n = j + 1 := ⟨n - 1, by omega⟩
  rw [pow_succ]
  exact mul_le_of_le_one_left hr (pow_le_one₀ hr (le_of_lt hr1))

/-- one frame from a small enough energy settles -/
theorem settle_of_small {k c g dt ρ : ℚ} (hk : 0 < k) (hr : 0 ≤ ρ) (hr1 : ρ < 1) (hs : Shrinks k c g ρ (frameH dt))
    {p : Spring} (m : Kind k c p) (hv : energy k g p < 1 / 16) (hy : energy k g p < k / 16) :
    (p.step g dt).settled = true := by
  have e0 := energy_nonneg g hk p
  have ms := Made.subs (h := frameH dt) (subCount (clampQ dt 0 (64 / 1000))) (m.aimed g)
  have es := energy_subs hr hs (subCount (clampQ dt 0 (64 / 1000))) (m.aimed g)
  rw [aimed_energy] at es
  rw [step_eq]
  generalize subCount (clampQ dt 0 (64 / 1000)) = n at *
  have hle : ρ ^ n * energy k g p ≤ energy k g p := mul_le_of_le_one_left e0 (pow_le_one₀ hr (le_of_lt hr1))
  have := snap_small hk ms.target (lt_of_le_of_lt (es.trans hle) hv) (lt_of_le_of_lt (es.trans hle) hy)
  unfold Spring.settled
  rw [ms.snap.target]
  exact decide_eq_true this

/-! ## a tab whose behaviour is a spring -/

structure Sprung (k c : ℚ) (s : State) : Prop where
  behavior : s.behavior = .spring k c
  anim : ∀ a b, s.anim = some (a, b) → ∃ px py, a = .spring px ∧ b = .spring py ∧ Kind k c px ∧ Kind k c py

theorem Kind.new (x k c : ℚ) : Kind k c (Spring.new x k c) := ⟨rfl, rfl, by simp only [Spring.new]; norm_num⟩

theorem Sprung.new (k c : ℚ) : Sprung k c (State.new (.spring k c)) := ⟨rfl, fun _ _ h => by simp [State.new] at h⟩

theorem Sprung.reset {k c : ℚ} {s : State} (h : Sprung k c s) (x y : ℚ) : Sprung k c (s.reset x y) :=
  ⟨h.behavior, fun _ _ h => by simp [State.reset] at h⟩

theorem Sprung.start {k c : ℚ} {s : State} (h : Sprung k c s) : Sprung k c s.start.1 := by
  refine ⟨(start_behavior s).trans h.behavior, ?_⟩
  simp only [State.start, h.behavior, Behavior.isInstant, Bool.false_eq_true, if_false]
  cases hs : s.anim with
  | some ab => exact fun a b => by simpa [hs] using h.anim a b
  | none =>
    intro a b hab
    simp only [Behavior.make, Option.some.injEq, Prod.mk.injEq] at hab
    exact ⟨_, _, hab.1.symm, hab.2.symm, Kind.new _ _ _, Kind.new _ _ _⟩

theorem Sprung.tick {k c : ℚ} {s : State} (h : Sprung k c s) (dt : ℚ) : Sprung k c (s.tick dt).1 := by
  refine ⟨(tick_behavior s dt).trans h.behavior, ?_⟩
  intro a b hab
  simp only [State.tick] at hab
  cases hs : s.anim with
  | none => simp [hs] at hab
  | some p =>
    obtain ⟨ax, ay⟩ := p
    obtain ⟨px, py, rfl, rfl, kx, ky⟩ := h.anim ax ay hs
    simp only [hs] at hab
    split at hab
    · simp at hab
    · simp only [Option.some.injEq, Prod.mk.injEq] at hab
      exact ⟨_, _, hab.1.symm, hab.2.symm, (step_made kx _ _).kind, (step_made ky _ _).kind⟩

theorem Sprung.step {k c : ℚ} {t : Tab} (h : Sprung k c t.st) (ev : Event) : Sprung k c (t.step ev).st := by
  cases ev with
  | wheel dx dy => rw [Tab.step, scrollPageBy_st]; exact Sprung.start (s := t.st.aim _ _ _ _) ⟨h.behavior, h.anim⟩
  | tick dt lay => rw [Tab.step, tick_st]; exact h.tick dt
  | resize v => simp only [Tab.step]; split <;> exact h
  | jump x y =>
    simp only [Tab.step, Tab.applyScroll]
    rw [setScroll_st]
    exact h.reset _ _
  | leave => exact h.reset _ _
  | document => exact h
  | touch => exact h

theorem Sprung.run {k c : ℚ} {t : Tab} (h : Sprung k c t.st) (es : List Event) : Sprung k c (t.run es).st := by
  induction es generalizing t with
  | nil => exact h
  | cons ev es ih => exact ih (Sprung.step h ev)

/-- both springs' energies at most `E` -/
def Energetic (k E : ℚ) (s : State) : Prop :=
  s.anim = none ∨ ∃ px py, s.anim = some (.spring px, .spring py) ∧ energy k s.target.1 px ≤ E ∧ energy k s.target.2 py ≤ E

theorem Energetic.tick {k c ρ E dt : ℚ} {s : State} (hk : 0 < k) (hr : 0 ≤ ρ) (hr1 : ρ < 1)
    (h1 : Shrinks k c s.target.1 ρ (frameH dt)) (h2 : Shrinks k c s.target.2 ρ (frameH dt)) (h : Sprung k c s)
    (he : Energetic k E s) :
    Energetic k (ρ * E) (s.tick dt).1 ∧ (E < 1 / 16 → E < k / 16 → (s.tick dt).1.anim = none) := by
  rcases he with hn | ⟨px, py, hs, ex, ey⟩
  · simp [State.tick, hn, Energetic]
  · obtain ⟨px', py', e1, e2, kx, ky⟩ := h.anim _ _ hs
    cases e1; cases e2
    constructor
    · simp only [Energetic, State.tick, hs]
      split
      · left; rfl
      · right
        exact ⟨_, _, rfl, (step_energy hk hr hr1 h1 kx).trans (mul_le_mul_of_nonneg_left ex hr),
          (step_energy hk hr hr1 h2 ky).trans (mul_le_mul_of_nonneg_left ey hr)⟩
    · intro a b
      have sx := settle_of_small hk hr hr1 h1 kx (lt_of_le_of_lt ex a) (lt_of_le_of_lt ex b)
      have sy := settle_of_small hk hr hr1 h2 ky (lt_of_le_of_lt ey a) (lt_of_le_of_lt ey b)
      simp only [State.tick, hs, Anim.step, Anim.settled, sx, sy, Bool.and_true, if_true]

theorem spring_lands {k c δ ρ : ℚ} (hk : 0 < k) (hr : 0 ≤ ρ) (hr1 : ρ < 1) :
    ∀ (n : Nat) (ts : List Event) (t : Tab) (E : ℚ), Sprung k c t.st → Energetic k E t.st → 0 ≤ E →
      (∀ dt, δ ≤ dt → Shrinks k c t.st.target.1 ρ (frameH dt)) → (∀ dt, δ ≤ dt → Shrinks k c t.st.target.2 ρ (frameH dt)) →
      ρ ^ n * E < 1 / 16 → ρ ^ n * E < k / 16 → n < ts.length → (∀ x ∈ ts, ∃ dt lay, δ ≤ dt ∧ x = .tick dt lay) →
      (t.run ts).st.anim = none
  | n, [], t, E, _, _, _, _, _, _, _, hl, _ => by simp at hl
  | n, x :: ts, t, E, hs, he, h0, s1, s2, e1, e2, hl, ht => by
    obtain ⟨dt, lay, hd, rfl⟩ := ht x (by simp)
    have ht' : ∀ x ∈ ts, ∃ dt lay, δ ≤ dt ∧ x = .tick dt lay := fun x hx => ht x (by simp [hx])
    have st : (t.step (.tick dt lay)).st = (t.st.tick dt).1 := tick_st _ _ _
    have tg : (t.step (.tick dt lay)).st.target = t.st.target := by rw [st, tick_target]
    have step := he.tick hk hr hr1 (s1 dt hd) (s2 dt hd) hs
    cases n with
    | zero =>
      refine rests (t := t.step (.tick dt lay)) (fun x hx => ?_) ?_
      · obtain ⟨a, b, -, r⟩ := ht' x hx
        exact ⟨a, b, r⟩
      · rw [st]; exact step.2 (by simpa using e1) (by simpa using e2)
    | succ n =>
      refine spring_lands hk hr hr1 n ts (t.step (.tick dt lay)) (ρ * E) (Sprung.step hs _) (by rw [st]; exact step.1)
        (mul_nonneg hr h0) (by rw [tg]; exact s1) (by rw [tg]; exact s2) ?_ ?_ (by simpa using hl) ht'
      · rw [← mul_assoc, ← pow_succ]; exact e1
      · rw [← mul_assoc, ← pow_succ]; exact e2

theorem energetic {k c : ℚ} {s : State} (hk : 0 < k) (h : Sprung k c s) : ∃ E, 0 ≤ E ∧ Energetic k E s := by
  cases hs : s.anim with
  | none => exact ⟨0, le_rfl, Or.inl hs⟩
  | some p =>
    obtain ⟨a, b⟩ := p
    obtain ⟨px, py, rfl, rfl, -, -⟩ := h.anim a b hs
    have a := energy_nonneg s.target.1 hk px
    have b := energy_nonneg s.target.2 hk py
    exact ⟨energy k s.target.1 px + energy k s.target.2 py, by linarith, Or.inr ⟨px, py, hs, by linarith, by linarith⟩⟩

/-! ## springs that never come to rest -/

/-- without damping, sub-steps of a fixed length conserve this -/
def invariant (k g h : ℚ) (p : Spring) : ℚ :=
  p.velocity ^ 2 + k * (p.current - g) ^ 2 - k * h * (p.current - g) * p.velocity

theorem invariant_sub {k g h : ℚ} {p : Spring} (m : Made k 0 g p) : invariant k g h (p.sub h) = invariant k g h p := by
  unfold invariant Spring.sub
  simp only [m.stiffness, m.damping, m.mass, m.target]
  ring

theorem invariant_subs {k g h : ℚ} : ∀ (n : Nat) {p : Spring}, Made k 0 g p → invariant k g h (p.subs h n) = invariant k g h p
  | 0, _, _ => rfl
  | n + 1, p, m => (invariant_subs n (m.sub h)).trans (invariant_sub m)

theorem no_snap {k g h : ℚ} {p : Spring} (hk : 0 ≤ k) (h0 : 0 ≤ h) (ht : p.target = g)
    (hb : (1 + k + k * h) / 16 ≤ invariant k g h p) : p.snap = p ∧ p.settled = false := by
  have key : ¬(|p.current - p.target| < 25 / 100 ∧ |p.velocity| < 25 / 100) := by
    rintro ⟨a, b⟩
    rw [ht] at a
    have a2 : (p.current - g) ^ 2 < 1 / 16 := by
      have := sq_lt_sq' (neg_lt_of_abs_lt a) (lt_of_abs_lt a); linarith
    have b2 : p.velocity ^ 2 < 1 / 16 := by
      have := sq_lt_sq' (neg_lt_of_abs_lt b) (lt_of_abs_lt b); linarith
    have ab : -((p.current - g) * p.velocity) ≤ 1 / 16 := by
      nlinarith [sq_nonneg (p.current - g + p.velocity)]
    unfold invariant at hb
    have q1 := mul_le_mul_of_nonneg_left (le_of_lt a2) hk
    have q2 := mul_le_mul_of_nonneg_left ab (mul_nonneg hk h0)
    linarith
  constructor
  · unfold Spring.snap; rw [if_neg key]
  · unfold Spring.settled
    rw [decide_eq_false_iff_not]
    rintro ⟨a, b⟩
    apply key
    rw [a, b]
    norm_num

end Verif.Scroll
