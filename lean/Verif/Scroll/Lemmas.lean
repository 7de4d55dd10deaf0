import Verif.Scroll.Spec
import Mathlib.Tactic.Linarith
import Mathlib.Tactic.Ring
import Mathlib.Tactic.FieldSimp
import Mathlib.Tactic.NormNum
import Mathlib.Tactic.Positivity

/-! # Easing curves -/

namespace Verif.Scroll

theorem clampQ_low (x : ℚ) : 0 ≤ clampQ x 0 1 := by unfold clampQ; split_ifs <;> linarith
theorem clampQ_high (x : ℚ) : clampQ x 0 1 ≤ 1 := by unfold clampQ; split_ifs <;> linarith
theorem clampQ_mono {x y : ℚ} (h : x ≤ y) : clampQ x 0 1 ≤ clampQ y 0 1 := by
  unfold clampQ; split_ifs <;> linarith
theorem clampQ_id {x : ℚ} (h0 : 0 ≤ x) (h1 : x ≤ 1) : clampQ x 0 1 = x := by
  unfold clampQ; rw [if_neg (by linarith), if_neg (by linarith)]

theorem sample_eq (p q s : ℚ) : sample p q s = bezier p q s := by
  simp only [sample, bezier]; ring

theorem bezier_low {p q s : ℚ} (hp : 0 ≤ p) (hq : 0 ≤ q) (h0 : 0 ≤ s) (h1 : s ≤ 1) : 0 ≤ bezier p q s := by
  unfold bezier
  have : 0 ≤ 1 - s := by linarith
  positivity

theorem bezier_refl (p q s : ℚ) : bezier p q s = 1 - bezier (1 - q) (1 - p) (1 - s) := by
  unfold bezier; ring

theorem bezier_high {p q s : ℚ} (hp : p ≤ 1) (hq : q ≤ 1) (h0 : 0 ≤ s) (h1 : s ≤ 1) : bezier p q s ≤ 1 := by
  rw [bezier_refl]
  have := bezier_low (p := 1 - q) (q := 1 - p) (s := 1 - s) (by linarith) (by linarith) (by linarith) (by linarith)
  linarith

/-- the slope of the chord between two parameters -/
def chord (p q a b : ℚ) : ℚ :=
  (a ^ 2 + a * b + b ^ 2) + 3 * p * (1 - 2 * (a + b) + (a ^ 2 + a * b + b ^ 2)) +
    3 * q * ((a + b) - (a ^ 2 + a * b + b ^ 2))

theorem bezier_sub (p q a b : ℚ) : bezier p q b - bezier p q a = (b - a) * chord p q a b := by
  unfold bezier chord; ring

theorem chord_mix (p q a b : ℚ) :
    chord p q a b = (1 - p) * (1 - q) * chord 0 0 a b + p * (1 - q) * chord 1 0 a b + (1 - p) * q * chord 0 1 a b +
      p * q * chord 1 1 a b := by
  unfold chord; ring

theorem chord_low {p q a b : ℚ} (hp0 : 0 ≤ p) (hp1 : p ≤ 1) (hq0 : 0 ≤ q) (hq1 : q ≤ 1) (ha0 : 0 ≤ a) (ha1 : a ≤ 1)
    (hb0 : 0 ≤ b) (hb1 : b ≤ 1) : 0 ≤ chord p q a b := by
  have hp : 0 ≤ 1 - p := by linarith
  have hq : 0 ≤ 1 - q := by linarith
  have c00 : 0 ≤ chord 0 0 a b := by unfold chord; nlinarith [mul_nonneg ha0 hb0, sq_nonneg a, sq_nonneg b]
  have c10 : 0 ≤ chord 1 0 a b := by unfold chord; nlinarith [sq_nonneg (a - b), sq_nonneg (a + b - 1)]
  have c01 : 0 ≤ chord 0 1 a b := by
    unfold chord
    nlinarith [mul_nonneg ha0 (sub_nonneg.2 ha1), mul_nonneg hb0 (sub_nonneg.2 hb1), mul_nonneg ha0 (sub_nonneg.2 hb1),
      mul_nonneg hb0 (sub_nonneg.2 ha1)]
  have c11 : 0 ≤ chord 1 1 a b := by
    unfold chord
    nlinarith [mul_nonneg (sub_nonneg.2 ha1) (sub_nonneg.2 hb1), sq_nonneg (1 - a), sq_nonneg (1 - b)]
  rw [chord_mix]
  positivity

theorem chord_high {p q a b : ℚ} (hp0 : 0 ≤ p) (hp1 : p ≤ 1) (hq0 : 0 ≤ q) (hq1 : q ≤ 1) (ha0 : 0 ≤ a) (ha1 : a ≤ 1)
    (hb0 : 0 ≤ b) (hb1 : b ≤ 1) : chord p q a b ≤ 3 := by
  have hp : 0 ≤ 1 - p := by linarith
  have hq : 0 ≤ 1 - q := by linarith
  have c00 : 0 ≤ 3 - chord 0 0 a b := by
    unfold chord
    nlinarith [mul_nonneg ha0 (sub_nonneg.2 ha1), mul_nonneg hb0 (sub_nonneg.2 hb1), mul_nonneg ha0 (sub_nonneg.2 hb1),
      mul_nonneg hb0 (sub_nonneg.2 ha1)]
  have c10 : 0 ≤ 3 - chord 1 0 a b := by
    unfold chord
    nlinarith [mul_nonneg ha0 (sub_nonneg.2 ha1), mul_nonneg hb0 (sub_nonneg.2 hb1), mul_nonneg ha0 (sub_nonneg.2 hb1),
      mul_nonneg hb0 (sub_nonneg.2 ha1)]
  have c01 : 0 ≤ 3 - chord 0 1 a b := by
    unfold chord
    nlinarith [sq_nonneg (a - b), sq_nonneg (a + b - 1)]
  have c11 : 0 ≤ 3 - chord 1 1 a b := by
    unfold chord
    nlinarith [mul_nonneg ha0 (sub_nonneg.2 ha1), mul_nonneg hb0 (sub_nonneg.2 hb1), mul_nonneg ha0 (sub_nonneg.2 hb1),
      mul_nonneg hb0 (sub_nonneg.2 ha1)]
  have key : 3 - chord p q a b = (1 - p) * (1 - q) * (3 - chord 0 0 a b) + p * (1 - q) * (3 - chord 1 0 a b) +
      (1 - p) * q * (3 - chord 0 1 a b) + p * q * (3 - chord 1 1 a b) := by
    rw [chord_mix p q a b]; ring
  have : 0 ≤ 3 - chord p q a b := by rw [key]; positivity
  linarith

theorem bezier_mono {p q a b : ℚ} (hp0 : 0 ≤ p) (hp1 : p ≤ 1) (hq0 : 0 ≤ q) (hq1 : q ≤ 1) (ha0 : 0 ≤ a) (hab : a ≤ b)
    (hb1 : b ≤ 1) : bezier p q a ≤ bezier p q b := by
  have := bezier_sub p q a b
  have c := chord_low hp0 hp1 hq0 hq1 ha0 (hab.trans hb1) (ha0.trans hab) hb1
  have : 0 ≤ (b - a) * chord p q a b := mul_nonneg (by linarith) c
  linarith

theorem bezier_lip {p q a b : ℚ} (hp0 : 0 ≤ p) (hp1 : p ≤ 1) (hq0 : 0 ≤ q) (hq1 : q ≤ 1) (ha0 : 0 ≤ a) (hab : a ≤ b)
    (hb1 : b ≤ 1) : bezier p q b - bezier p q a ≤ 3 * (b - a) := by
  rw [bezier_sub]
  have c := chord_high hp0 hp1 hq0 hq1 ha0 (hab.trans hb1) (ha0.trans hab) hb1
  nlinarith [sub_nonneg.2 hab]

theorem newton_some {x1 x2 t : ℚ} : ∀ {n : Nat} {s r : ℚ}, newton x1 x2 t n s = some r → 0 ≤ s → s ≤ 1 →
    0 ≤ r ∧ r ≤ 1 ∧ |bezier x1 x2 r - t| < 1 / 1000000
  | 0, _, _, h, _, _ => by simp [newton] at h
  | n + 1, s, r, h, h0, h1 => by
    simp only [newton] at h
    split_ifs at h with hx hd
    · cases h
      rw [sample_eq] at hx
      exact ⟨h0, h1, hx⟩
    · exact newton_some h (clampQ_low _) (clampQ_high _)

theorem bisect_range {x1 x2 t : ℚ} : ∀ (n : Nat) {lo hi s : ℚ}, 0 ≤ lo → lo ≤ s → s ≤ hi → hi ≤ 1 →
    0 ≤ bisect x1 x2 t n lo hi s ∧ bisect x1 x2 t n lo hi s ≤ 1
  | 0, lo, hi, s, h0, h1, h2, h3 => by simp only [bisect]; constructor <;> linarith
  | n + 1, lo, hi, s, h0, h1, h2, h3 => by
    simp only [bisect]
    split_ifs
    · constructor <;> linarith
    · exact bisect_range n (by linarith) (by linarith) (by linarith) (by linarith)
    · exact bisect_range n (by linarith) (by linarith) (by linarith) (by linarith)

/-- with `n` rounds left and the parameter halfway, the answer is within `3 · width / 2ⁿ` of what is wanted -/
theorem bisect_close {x1 x2 t : ℚ} (hx1 : 0 ≤ x1) (hx1' : x1 ≤ 1) (hx2 : 0 ≤ x2) (hx2' : x2 ≤ 1) :
    ∀ (n : Nat) {lo hi : ℚ}, 0 ≤ lo → lo ≤ hi → hi ≤ 1 → bezier x1 x2 lo ≤ t → t ≤ bezier x1 x2 hi →
    |bezier x1 x2 (bisect x1 x2 t n lo hi ((lo + hi) * (1 / 2))) - t| < 1 / 1000000 ∨
    |bezier x1 x2 (bisect x1 x2 t n lo hi ((lo + hi) * (1 / 2))) - t| ≤ 3 * (hi - lo) / 2 ^ n
  | 0, lo, hi, h0, h1, h2, h3, h4 => by
    right
    simp only [bisect]
    have a := bezier_mono hx1 hx1' hx2 hx2' (a := lo) (b := (lo + hi) * (1 / 2)) h0 (by linarith) (by linarith)
    have b := bezier_mono hx1 hx1' hx2 hx2' (a := (lo + hi) * (1 / 2)) (b := hi) (by linarith) (by linarith) h2
    have c := bezier_lip hx1 hx1' hx2 hx2' h0 h1 h2
    rw [abs_le]
    constructor <;> simp <;> linarith
  | n + 1, lo, hi, h0, h1, h2, h3, h4 => by
    simp only [bisect, sample_eq]
    split_ifs with ha hb
    · left; exact ha
    · have := bisect_close (t := t) hx1 hx1' hx2 hx2' n (lo := (lo + hi) * (1 / 2)) (hi := hi) (by linarith) (by linarith)
        h2 (le_of_lt hb) h4
      rcases this with h | h
      · left; exact h
      · right
        refine h.trans (le_of_eq ?_)
        rw [pow_succ]; field_simp; ring
    · have := bisect_close (t := t) hx1 hx1' hx2 hx2' n (lo := lo) (hi := (lo + hi) * (1 / 2)) h0 (by linarith)
        (by linarith) h3 (not_lt.1 hb)
      rcases this with h | h
      · left; exact h
      · right
        refine h.trans (le_of_eq ?_)
        rw [pow_succ]; field_simp; ring

theorem bisect_succ {x1 x2 t : ℚ} (hx1 : 0 ≤ x1) (hx1' : x1 ≤ 1) (hx2 : 0 ≤ x2) (hx2' : x2 ≤ 1) (h0 : 0 ≤ t) (h1 : t ≤ 1)
    (n : Nat) (hn : n = 23) : |bezier x1 x2 (bisect x1 x2 t (n + 1) 0 1 t) - t| < 1 / 1000000 := by
  have z : bezier x1 x2 0 = 0 := by unfold bezier; ring
  have o : bezier x1 x2 1 = 1 := by unfold bezier; ring
  simp only [bisect, sample_eq]
  split_ifs with ha hb
  · exact ha
  · have := bisect_close (t := t) hx1 hx1' hx2 hx2' n (lo := t) (hi := 1) h0 h1 le_rfl (le_of_lt hb) (by rw [o]; exact h1)
    rcases this with h | h
    · exact h
    · refine lt_of_le_of_lt h ?_
      rw [div_lt_iff₀ (by positivity), hn]
      norm_num; linarith
  · have := bisect_close (t := t) hx1 hx1' hx2 hx2' n (lo := 0) (hi := t) le_rfl h0 h1 (by rw [z]; exact h0)
      (not_lt.1 hb)
    rcases this with h | h
    · exact h
    · refine lt_of_le_of_lt h ?_
      rw [div_lt_iff₀ (by positivity), hn]
      norm_num; linarith

theorem bisect_24 {x1 x2 t : ℚ} (hx1 : 0 ≤ x1) (hx1' : x1 ≤ 1) (hx2 : 0 ≤ x2) (hx2' : x2 ≤ 1) (h0 : 0 ≤ t) (h1 : t ≤ 1) :
    |bezier x1 x2 (bisect x1 x2 t 24 0 1 t) - t| < 1 / 1000000 := bisect_succ hx1 hx1' hx2 hx2' h0 h1 23 rfl

/-- the parameter `cubic_bezier` evaluates at -/
theorem cubicBezier_param (x1 y1 x2 y2 : ℚ) {t : ℚ} (h0 : 0 < t) (h1 : t < 1) :
    ∃ s : ℚ, 0 ≤ s ∧ s ≤ 1 ∧ cubicBezier x1 y1 x2 y2 t = bezier y1 y2 s ∧
      (0 ≤ x1 → x1 ≤ 1 → 0 ≤ x2 → x2 ≤ 1 → |bezier x1 x2 s - t| < 1 / 1000000) := by
  unfold cubicBezier
  rw [if_neg (by linarith), if_neg (by linarith)]
  cases hn : newton x1 x2 t 8 t with
  | some r =>
    have := newton_some hn (le_of_lt h0) (le_of_lt h1)
    exact ⟨r, this.1, this.2.1, by simp [sample_eq], fun _ _ _ _ => this.2.2⟩
  | none =>
    have r := bisect_range (x1 := x1) (x2 := x2) (t := t) 24 (lo := 0) (hi := 1) (s := t) le_rfl (le_of_lt h0) (le_of_lt h1)
      le_rfl
    exact ⟨_, r.1, r.2, by simp [sample_eq], fun a b c d => bisect_24 a b c d (le_of_lt h0) (le_of_lt h1)⟩

theorem cubicBezier_range {x1 y1 x2 y2 : ℚ} (t : ℚ) (hy1 : 0 ≤ y1) (hy1' : y1 ≤ 1) (hy2 : 0 ≤ y2) (hy2' : y2 ≤ 1) :
    0 ≤ cubicBezier x1 y1 x2 y2 t ∧ cubicBezier x1 y1 x2 y2 t ≤ 1 := by
  by_cases h0 : t ≤ 0
  · unfold cubicBezier; rw [if_pos h0]; norm_num
  · by_cases h1 : 1 ≤ t
    · unfold cubicBezier; rw [if_neg h0, if_pos h1]; norm_num
    · obtain ⟨s, s0, s1, e, -⟩ := cubicBezier_param x1 y1 x2 y2 (not_le.1 h0) (not_le.1 h1)
      rw [e]
      exact ⟨bezier_low hy1 hy2 s0 s1, bezier_high hy1' hy2' s0 s1⟩

theorem bounce_range {t : ℚ} (h0 : 0 ≤ t) (h1 : t ≤ 1) : 0 ≤ bounce t ∧ bounce t ≤ 1 := by
  simp only [bounce]
  split_ifs with a b c
  · rw [lt_div_iff₀ (by norm_num)] at a
    constructor
    · positivity
    · nlinarith
  · rw [not_lt, div_le_iff₀ (by norm_num)] at a
    rw [lt_div_iff₀ (by norm_num)] at b
    constructor
    · nlinarith [sq_nonneg (t - 15 / 10 / (275 / 100))]
    · norm_num; nlinarith [mul_nonneg (sub_nonneg.2 a) (sub_nonneg.2 (le_of_lt b))]
  · rw [not_lt, div_le_iff₀ (by norm_num)] at b
    rw [lt_div_iff₀ (by norm_num)] at c
    constructor
    · nlinarith [sq_nonneg (t - 225 / 100 / (275 / 100))]
    · norm_num; nlinarith [mul_nonneg (sub_nonneg.2 b) (sub_nonneg.2 (le_of_lt c))]
  · rw [not_lt, div_le_iff₀ (by norm_num)] at c
    constructor
    · nlinarith [sq_nonneg (t - 2625 / 1000 / (275 / 100))]
    · norm_num; nlinarith [mul_nonneg (sub_nonneg.2 c) (sub_nonneg.2 h1)]

theorem steps_range (n : Nat) (pos : StepPos) (t : ℚ) : 0 ≤ steps n pos t ∧ steps n pos t ≤ 1 := by
  simp only [steps]
  exact ⟨clampQ_low _, clampQ_high _⟩

theorem steps_mono (n : Nat) (pos : StepPos) {s t : ℚ} (h : s ≤ t) : steps n pos s ≤ steps n pos t := by
  have hn : (0 : ℚ) < (max n 1 : Nat) := by
    have : 0 < max n 1 := by omega
    exact_mod_cast this
  have hm : s * ((max n 1 : Nat) : ℚ) ≤ t * ((max n 1 : Nat) : ℚ) := mul_le_mul_of_nonneg_right h (le_of_lt hn)
  have hf : ((⌊s * ((max n 1 : Nat) : ℚ)⌋ : Int) : ℚ) ≤ (⌊t * ((max n 1 : Nat) : ℚ)⌋ : Int) := by
    exact_mod_cast Int.floor_le_floor hm
  have hc : ((⌈s * ((max n 1 : Nat) : ℚ)⌉ : Int) : ℚ) ≤ (⌈t * ((max n 1 : Nat) : ℚ)⌉ : Int) := by
    exact_mod_cast Int.ceil_le_ceil hm
  generalize hN : ((max n 1 : Nat) : ℚ) = N at *
  cases pos <;> simp only [steps, hN] <;> apply clampQ_mono
  · exact div_le_div_of_nonneg_right hc (le_of_lt hn)
  · exact div_le_div_of_nonneg_right hf (le_of_lt hn)
  · exact div_le_div_of_nonneg_right hf (le_trans zero_le_one (le_max_right _ _))
  · exact div_le_div_of_nonneg_right (by linarith) (by linarith)

end Verif.Scroll
