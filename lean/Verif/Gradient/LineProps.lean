import Verif.Gradient.LineSpec
import Mathlib.Tactic.Linarith
import Mathlib.Tactic.LinearCombination
import Mathlib.Tactic.FieldSimp
import Mathlib.Tactic.Ring

/-! # C144: directions of gradients -/
namespace Verif.Gradient

/-- the length of the line -/
noncomputable def len (deg w h : ℝ) : ℝ := w * |Real.sin (deg * (Real.pi / 180))| + h * |Real.cos (deg * (Real.pi / 180))|

theorem position_eq {deg w h : ℝ} (hl : 0 < len deg w h) (x y : ℝ) :
    position deg w h x y = ((x - w / 2) * Real.sin (deg * (Real.pi / 180)) - (y - h / 2) * Real.cos (deg * (Real.pi / 180))) / len deg w h + 1 / 2 := by
  have hsc := Real.sin_sq_add_cos_sq (deg * (Real.pi / 180))
  unfold position line len at *
  simp only [abs_neg]
  generalize Real.sin (deg * (Real.pi / 180)) = s at *
  generalize Real.cos (deg * (Real.pi / 180)) = c at *
  generalize hL : w * |s| + h * |c| = L at *
  have hlen : (w / 2 + s * (L / 2) - (w / 2 - s * (L / 2))) * (w / 2 + s * (L / 2) - (w / 2 - s * (L / 2))) +
      (h / 2 + -c * (L / 2) - (h / 2 - -c * (L / 2))) * (h / 2 + -c * (L / 2) - (h / 2 - -c * (L / 2))) = L * L := by
    linear_combination L * L * hsc
  rw [hlen, if_neg (by nlinarith)]
  have hne : L ≠ 0 := ne_of_gt hl
  field_simp
  linear_combination 2 * L ^ 2 * hsc

theorem len_nonneg {deg w h : ℝ} (hw : 0 ≤ w) (hh : 0 ≤ h) : 0 ≤ len deg w h :=
  add_nonneg (mul_nonneg hw (abs_nonneg _)) (mul_nonneg hh (abs_nonneg _))

theorem len_pos {deg w h : ℝ} (hw : 0 < w) (hh : 0 < h) : 0 < len deg w h := by
  rcases lt_or_eq_of_le (len_nonneg (deg := deg) (le_of_lt hw) (le_of_lt hh)) with h1 | h1
  · exact h1
  · exfalso
    unfold len at h1
    have a1 := mul_nonneg (le_of_lt hw) (abs_nonneg (Real.sin (deg * (Real.pi / 180))))
    have a2 := mul_nonneg (le_of_lt hh) (abs_nonneg (Real.cos (deg * (Real.pi / 180))))
    have b1 : w * |Real.sin (deg * (Real.pi / 180))| = 0 := by linarith
    have b2 : h * |Real.cos (deg * (Real.pi / 180))| = 0 := by linarith
    have c1 := abs_eq_zero.1 ((mul_eq_zero.1 b1).resolve_left (ne_of_gt hw))
    have c2 := abs_eq_zero.1 ((mul_eq_zero.1 b2).resolve_left (ne_of_gt hh))
    have := Real.sin_sq_add_cos_sq (deg * (Real.pi / 180))
    rw [c1, c2] at this
    norm_num at this

theorem part_le {x w s : ℝ} (h0 : 0 ≤ x) (h1 : x ≤ w) : -(w * |s| / 2) ≤ (x - w / 2) * s ∧ (x - w / 2) * s ≤ w * |s| / 2 := by
  rcases abs_cases s with ⟨e, hs⟩ | ⟨e, hs⟩ <;> rw [e] <;> constructor <;> nlinarith

/-- **C144** In every direction the box is covered: its points are between the beginning and the end of the line, -/
theorem C144_covers (deg : ℝ) {w h x y : ℝ} (hw : 0 < w) (hh : 0 < h) (hb : InBox w h x y) :
    0 ≤ position deg w h x y ∧ position deg w h x y ≤ 1 := by
  have hl := len_pos (deg := deg) hw hh
  rw [position_eq hl]
  obtain ⟨h1, h2, h3, h4⟩ := hb
  have a := part_le (s := Real.sin (deg * (Real.pi / 180))) h1 h2
  have b := part_le (s := Real.cos (deg * (Real.pi / 180))) h3 h4
  have c1 : -(1 / 2) ≤ ((x - w / 2) * Real.sin (deg * (Real.pi / 180)) - (y - h / 2) * Real.cos (deg * (Real.pi / 180))) / len deg w h := by
    rw [le_div_iff₀ hl]; unfold len; linarith
  have c2 : ((x - w / 2) * Real.sin (deg * (Real.pi / 180)) - (y - h / 2) * Real.cos (deg * (Real.pi / 180))) / len deg w h ≤ 1 / 2 := by
    rw [div_le_iff₀ hl]; unfold len; linarith
  constructor <;> linarith

/-- **C144** and both are reached, in opposite corners. -/
theorem C144_corners (deg : ℝ) {w h : ℝ} (hw : 0 < w) (hh : 0 < h) :
    ∃ x y, Corner w h x y ∧ position deg w h x y = 1 ∧ Corner w h (w - x) (h - y) ∧ position deg w h (w - x) (h - y) = 0 := by
  have hl := len_pos (deg := deg) hw hh
  have hne : len deg w h ≠ 0 := ne_of_gt hl
  have key : ∃ x y, (x = 0 ∨ x = w) ∧ (y = 0 ∨ y = h) ∧
      (x - w / 2) * Real.sin (deg * (Real.pi / 180)) - (y - h / 2) * Real.cos (deg * (Real.pi / 180)) = len deg w h / 2 := by
    unfold len
    rcases abs_cases (Real.sin (deg * (Real.pi / 180))) with ⟨e, _⟩ | ⟨e, _⟩ <;>
      rcases abs_cases (Real.cos (deg * (Real.pi / 180))) with ⟨e', _⟩ | ⟨e', _⟩ <;> rw [e, e']
    · exact ⟨w, 0, .inr rfl, .inl rfl, by ring⟩
    · exact ⟨w, h, .inr rfl, .inr rfl, by ring⟩
    · exact ⟨0, 0, .inl rfl, .inl rfl, by ring⟩
    · exact ⟨0, h, .inl rfl, .inr rfl, by ring⟩
  obtain ⟨x, y, hx, hy, hk⟩ := key
  refine ⟨x, y, ⟨hx, hy⟩, ?_, ⟨?_, ?_⟩, ?_⟩
  · rw [position_eq hl, hk]; field_simp; norm_num
  · rcases hx with rfl | rfl
    · exact .inr (by ring)
    · exact .inl (by ring)
  · rcases hy with rfl | rfl
    · exact .inr (by ring)
    · exact .inl (by ring)
  · rw [position_eq hl]
    have : (w - x - w / 2) * Real.sin (deg * (Real.pi / 180)) - (h - y - h / 2) * Real.cos (deg * (Real.pi / 180)) = -(len deg w h / 2) := by
      rw [← hk]; ring
    rw [this]; field_simp; norm_num

/-- **C144** Only the way in the direction counts: going `s` in the direction of the angle (0 up, clockwise) and any way
across it changes the position in proportion to `s`, forwards, and by the same for all points. -/
theorem C144_along (deg : ℝ) {w h : ℝ} (hw : 0 < w) (hh : 0 < h) :
    ∃ L, 0 < L ∧ ∀ x y s a, position deg w h
      (x + s * Real.sin (deg * Real.pi / 180) + a * Real.cos (deg * Real.pi / 180))
      (y - s * Real.cos (deg * Real.pi / 180) + a * Real.sin (deg * Real.pi / 180)) = position deg w h x y + s / L := by
  have hl := len_pos (deg := deg) hw hh
  refine ⟨len deg w h, hl, ?_⟩
  intro x y s a
  rw [show deg * Real.pi / 180 = deg * (Real.pi / 180) by ring, position_eq hl, position_eq hl]
  have hsc := Real.sin_sq_add_cos_sq (deg * (Real.pi / 180))
  have hne : len deg w h ≠ 0 := ne_of_gt hl
  generalize Real.sin (deg * (Real.pi / 180)) = sn at *
  generalize Real.cos (deg * (Real.pi / 180)) = cs at *
  generalize len deg w h = L at *
  field_simp
  linear_combination 2 * s * hsc

/-- **C144** Angles mean the same in all units. -/
theorem C144_angle {u : String} {n : ℝ} (h : FullTurn u n) (v : ℝ) : parseDirection (.angle v u) = some (v / n * 360) := by
  have hpi := Real.pi_ne_zero
  rcases h with ⟨rfl, rfl⟩ | ⟨rfl, rfl⟩ | ⟨rfl, rfl⟩ | ⟨rfl, rfl⟩
  · simp [parseDirection]
  · simp [parseDirection]; ring
  · simp [parseDirection]; field_simp; ring
  · simp [parseDirection]

/-- **C144** A gradient to a side goes from the opposite side to it. -/
theorem C144_side {w h x y t : ℝ} (hw : 0 < w) (hh : 0 < h) {l : List String} (hs : Side w h x y l t) :
    ∃ deg, parseDirection (.words l) = some deg ∧ position deg w h x y = t := by
  have hw' : w ≠ 0 := ne_of_gt hw
  have hh' : h ≠ 0 := ne_of_gt hh
  rcases hs with ⟨rfl, rfl⟩ | ⟨rfl, rfl⟩ | ⟨rfl, rfl⟩ | ⟨rfl, rfl⟩
  · refine ⟨0, by simp [parseDirection, byWords], ?_⟩
    rw [position_eq (len_pos hw hh)]
    simp only [len, zero_mul, Real.sin_zero, Real.cos_zero, abs_zero, abs_one]
    field_simp; ring
  · refine ⟨180, by simp [parseDirection, byWords], ?_⟩
    rw [position_eq (len_pos hw hh)]
    have e : (180 : ℝ) * (Real.pi / 180) = Real.pi := by ring
    simp only [len, e, Real.sin_pi, Real.cos_pi, abs_zero, abs_neg, abs_one]
    field_simp; ring
  · refine ⟨90, by simp [parseDirection, byWords], ?_⟩
    rw [position_eq (len_pos hw hh)]
    have e : (90 : ℝ) * (Real.pi / 180) = Real.pi / 2 := by ring
    simp only [len, e, Real.sin_pi_div_two, Real.cos_pi_div_two, abs_zero, abs_one]
    field_simp; ring
  · refine ⟨270, by simp [parseDirection, byWords], ?_⟩
    rw [position_eq (len_pos hw hh)]
    have e : (270 : ℝ) * (Real.pi / 180) = Real.pi / 2 + Real.pi := by ring
    simp only [len, e, Real.sin_add_pi, Real.cos_add_pi, Real.sin_pi_div_two, Real.cos_pi_div_two, abs_neg, abs_zero, abs_one, neg_zero]
    field_simp; ring

theorem diagonal {deg w h : ℝ} (hw : 0 < w) (hh : 0 < h) {p q : ℝ × ℝ}
    (hpq : (p = (0, 0) ∧ q = (w, h) ∧ Real.sin (deg * (Real.pi / 180)) = Real.cos (deg * (Real.pi / 180))) ∨
      (p = (w, 0) ∧ q = (0, h) ∧ Real.sin (deg * (Real.pi / 180)) = -Real.cos (deg * (Real.pi / 180)))) :
    (position deg w h p.1 p.2 = 1 / 2 ∧ position deg w h q.1 q.2 = 1 / 2) ↔ w = h := by
  have hl := len_pos (deg := deg) hw hh
  have hne : len deg w h ≠ 0 := ne_of_gt hl
  have hsc := Real.sin_sq_add_cos_sq (deg * (Real.pi / 180))
  rw [position_eq hl, position_eq hl]
  generalize Real.sin (deg * (Real.pi / 180)) = s at *
  generalize Real.cos (deg * (Real.pi / 180)) = c at *
  have hc : s = c ∨ s = -c → c ≠ 0 := by
    rintro (rfl | rfl) h0
    · rw [h0] at hsc; norm_num at hsc
    · rw [h0] at hsc; norm_num at hsc
  have half : ∀ z : ℝ, z / len deg w h + 1 / 2 = 1 / 2 ↔ z = 0 := by
    intro z
    constructor
    · intro hz
      have : z / len deg w h = 0 := by linarith
      exact (div_eq_zero_iff.1 this).resolve_right hne
    · rintro rfl; simp
  rw [half, half]
  rcases hpq with ⟨rfl, rfl, rfl⟩ | ⟨rfl, rfl, rfl⟩
  · have := hc (.inl rfl)
    constructor
    · rintro ⟨h1, _⟩
      have : s * (h - w) = 0 := by linear_combination 2 * h1
      have := (mul_eq_zero.1 this).resolve_left ‹_›
      linarith
    · rintro rfl; constructor <;> ring
  · have := hc (.inr rfl)
    constructor
    · rintro ⟨h1, _⟩
      have : c * (h - w) = 0 := by linear_combination 2 * h1
      have := (mul_eq_zero.1 this).resolve_left ‹_›
      linarith
    · rintro rfl; constructor <;> ring

/-- **C144** A gradient to a corner has its middle in the two corners beside it exactly if the box is a square. CSS asks for
this in all boxes: `C144_corner_violated`. -/
theorem C144_corner_partial {w h : ℝ} (hw : 0 < w) (hh : 0 < h) {l : List String} {p q : ℝ × ℝ} (hb : Beside w h l p q) :
    ∃ deg, parseDirection (.words l) = some deg ∧
      ((position deg w h p.1 p.2 = 1 / 2 ∧ position deg w h q.1 q.2 = 1 / 2) ↔ w = h) := by
  have s45 : Real.sin (45 * (Real.pi / 180)) = Real.cos (45 * (Real.pi / 180)) := by
    rw [show (45 : ℝ) * (Real.pi / 180) = Real.pi / 4 by ring, Real.sin_pi_div_four, Real.cos_pi_div_four]
  have s225 : Real.sin (225 * (Real.pi / 180)) = Real.cos (225 * (Real.pi / 180)) := by
    rw [show (225 : ℝ) * (Real.pi / 180) = Real.pi / 4 + Real.pi by ring, Real.sin_add_pi, Real.cos_add_pi, Real.sin_pi_div_four, Real.cos_pi_div_four]
  have s135 : Real.sin (135 * (Real.pi / 180)) = -Real.cos (135 * (Real.pi / 180)) := by
    rw [show (135 : ℝ) * (Real.pi / 180) = Real.pi / 4 + Real.pi / 2 by ring, Real.sin_add_pi_div_two, Real.cos_add_pi_div_two, Real.sin_pi_div_four, Real.cos_pi_div_four, neg_neg]
  have s315 : Real.sin (315 * (Real.pi / 180)) = -Real.cos (315 * (Real.pi / 180)) := by
    rw [show (315 : ℝ) * (Real.pi / 180) = (Real.pi / 4 + Real.pi / 2) + Real.pi by ring, Real.sin_add_pi, Real.cos_add_pi, Real.sin_add_pi_div_two, Real.cos_add_pi_div_two, Real.sin_pi_div_four, Real.cos_pi_div_four, neg_neg]
  rcases hb with ⟨hl, rfl, rfl⟩ | ⟨hl, rfl, rfl⟩
  · rcases hl with rfl | rfl | rfl | rfl
    · exact ⟨45, by simp [parseDirection, byWords], diagonal hw hh (.inl ⟨rfl, rfl, s45⟩)⟩
    · exact ⟨45, by simp [parseDirection, byWords], diagonal hw hh (.inl ⟨rfl, rfl, s45⟩)⟩
    · exact ⟨225, by simp [parseDirection, byWords], diagonal hw hh (.inl ⟨rfl, rfl, s225⟩)⟩
    · exact ⟨225, by simp [parseDirection, byWords], diagonal hw hh (.inl ⟨rfl, rfl, s225⟩)⟩
  · rcases hl with rfl | rfl | rfl | rfl
    · exact ⟨315, by simp [parseDirection, byWords], diagonal hw hh (.inr ⟨rfl, rfl, s315⟩)⟩
    · exact ⟨315, by simp [parseDirection, byWords], diagonal hw hh (.inr ⟨rfl, rfl, s315⟩)⟩
    · exact ⟨135, by simp [parseDirection, byWords], diagonal hw hh (.inr ⟨rfl, rfl, s135⟩)⟩
    · exact ⟨135, by simp [parseDirection, byWords], diagonal hw hh (.inr ⟨rfl, rfl, s135⟩)⟩

theorem towards {deg w h : ℝ} (hw : 0 < w) (hh : 0 < h) {x y : ℝ}
    (h1 : (x - w / 2) * Real.sin (deg * (Real.pi / 180)) = w / 2 * |Real.sin (deg * (Real.pi / 180))|)
    (h2 : (h / 2 - y) * Real.cos (deg * (Real.pi / 180)) = h / 2 * |Real.cos (deg * (Real.pi / 180))|) :
    position deg w h x y = 1 := by
  have hl := len_pos (deg := deg) hw hh
  have hne : len deg w h ≠ 0 := ne_of_gt hl
  have e : (x - w / 2) * Real.sin (deg * (Real.pi / 180)) - (y - h / 2) * Real.cos (deg * (Real.pi / 180)) = len deg w h / 2 := by
    unfold len; linear_combination h1 + h2
  rw [position_eq hl, e]
  generalize len deg w h = L at *
  field_simp; norm_num

/-- **C144** A gradient to a corner ends in this corner. -/
theorem C144_towards {w h : ℝ} (hw : 0 < w) (hh : 0 < h) {l : List String} {r : ℝ × ℝ} (ht : Towards w h l r) :
    ∃ deg, parseDirection (.words l) = some deg ∧ position deg w h r.1 r.2 = 1 := by
  have hpos : 0 ≤ √(2 : ℝ) / 2 := div_nonneg (Real.sqrt_nonneg _) (by norm_num)
  have c45 : (45 : ℝ) * (Real.pi / 180) = Real.pi / 4 := by ring
  have c225 : (225 : ℝ) * (Real.pi / 180) = Real.pi / 4 + Real.pi := by ring
  have c135 : (135 : ℝ) * (Real.pi / 180) = Real.pi / 4 + Real.pi / 2 := by ring
  have c315 : (315 : ℝ) * (Real.pi / 180) = (Real.pi / 4 + Real.pi / 2) + Real.pi := by ring
  have t45 : position 45 w h w 0 = 1 := by
    refine towards hw hh ?_ ?_
    · rw [c45, Real.sin_pi_div_four, abs_of_nonneg hpos]; ring
    · rw [c45, Real.cos_pi_div_four, abs_of_nonneg hpos]; ring
  have t225 : position 225 w h 0 h = 1 := by
    refine towards hw hh ?_ ?_
    · rw [c225, Real.sin_add_pi, Real.sin_pi_div_four, abs_neg, abs_of_nonneg hpos]; ring
    · rw [c225, Real.cos_add_pi, Real.cos_pi_div_four, abs_neg, abs_of_nonneg hpos]; ring
  have t135 : position 135 w h w h = 1 := by
    refine towards hw hh ?_ ?_
    · rw [c135, Real.sin_add_pi_div_two, Real.cos_pi_div_four, abs_of_nonneg hpos]; ring
    · rw [c135, Real.cos_add_pi_div_two, Real.sin_pi_div_four, abs_neg, abs_of_nonneg hpos]; ring
  have t315 : position 315 w h 0 0 = 1 := by
    refine towards hw hh ?_ ?_
    · rw [c315, Real.sin_add_pi, Real.sin_add_pi_div_two, Real.cos_pi_div_four, abs_neg, abs_of_nonneg hpos]; ring
    · rw [c315, Real.cos_add_pi, Real.cos_add_pi_div_two, Real.sin_pi_div_four, neg_neg, abs_of_nonneg hpos]; ring
  rcases ht with ⟨hl, rfl⟩ | ⟨hl, rfl⟩ | ⟨hl, rfl⟩ | ⟨hl, rfl⟩
  · rcases hl with rfl | rfl <;> exact ⟨45, by simp [parseDirection, byWords], t45⟩
  · rcases hl with rfl | rfl <;> exact ⟨225, by simp [parseDirection, byWords], t225⟩
  · rcases hl with rfl | rfl <;> exact ⟨315, by simp [parseDirection, byWords], t315⟩
  · rcases hl with rfl | rfl <;> exact ⟨135, by simp [parseDirection, byWords], t135⟩

example : Towards 2 1 ["to", "left", "top"] (0, 0) := .inr (.inr (.inl ⟨.inr rfl, rfl⟩))

/-- in a box of 2 by 1 the middle of a gradient to the upper right is not in the upper left and the lower right -/
theorem C144_corner_violated : ∃ w h deg : ℝ, ∃ p q, w = 2 ∧ h = 1 ∧ parseDirection (.words ["to", "top", "right"]) = some deg ∧
    Beside w h ["to", "top", "right"] p q ∧ ¬ (position deg w h p.1 p.2 = 1 / 2 ∧ position deg w h q.1 q.2 = 1 / 2) := by
  have hb : Beside 2 1 ["to", "top", "right"] (0, 0) (2, 1) := .inl ⟨.inl rfl, rfl, rfl⟩
  obtain ⟨deg, h1, h2⟩ := C144_corner_partial (by norm_num) (by norm_num) hb
  exact ⟨2, 1, deg, _, _, rfl, rfl, h1, hb, fun h => by have := h2.1 h; norm_num at this⟩

example : InBox 200 100 50 20 ∧ Corner 200 100 0 100 ∧ FullTurn "grad" 400 ∧ Side 200 100 50 20 ["to", "left"] (3 / 4) ∧
    parseDirection (.words ["red"]) = none ∧ parseDirection (.angle 5 "px") = none := by
  refine ⟨by unfold InBox; norm_num, ⟨.inl rfl, .inr rfl⟩, .inr (.inl ⟨rfl, rfl⟩), .inr (.inr (.inr ⟨rfl, by norm_num⟩)), by simp [parseDirection],
    by simp [parseDirection]⟩

end Verif.Gradient
