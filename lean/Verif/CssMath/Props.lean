import Verif.CssMath.Spec
import Mathlib.Tactic.Linarith
import Mathlib.Tactic.NormNum
import Mathlib.Tactic.FieldSimp

/-! # C143: comparisons of lengths -/
namespace Verif.CssMath

theorem unitToPx_eq {w h : ℚ} {c : String → ℚ} (s : Sizes w h 16 16 c) (v : ℚ) {u : String} (hu : u ∈ knownUnits) :
    unitToPx w h v u = v * c u := by
  have e1 := s.px
  have e2 := s.inch
  have e3 := s.cm
  have e4 := s.mm
  have e5 := s.q
  have e6 := s.pt
  have e7 := s.pc
  have e8 := s.em
  have e9 := s.rem
  have f1 := s.width "vw" (by simp)
  have f2 := s.width "svw" (by simp)
  have f3 := s.width "lvw" (by simp)
  have f4 := s.width "dvw" (by simp)
  have g1 := s.height "vh" (by simp)
  have g2 := s.height "svh" (by simp)
  have g3 := s.height "lvh" (by simp)
  have g4 := s.height "dvh" (by simp)
  have k1 := s.vmin
  have k2 := s.vmax
  rw [e1] at e2
  have a1 : c "in" = 96 := by linarith
  have a2 : c "cm" = 9600 / 254 := by linarith
  have a3 : c "mm" = 960 / 254 := by linarith
  have a4 : c "q" = 240 / 254 := by linarith
  have a5 : c "pt" = 96 / 72 := by linarith
  have a6 : c "pc" = 16 := by linarith
  simp only [knownUnits, List.mem_cons, List.not_mem_nil, or_false] at hu
  rcases hu with rfl | rfl | rfl | rfl | rfl | rfl | rfl | rfl | rfl | rfl | rfl | rfl | rfl | rfl | rfl | rfl | rfl | rfl | rfl
  · simp [unitToPx, e1]
  · simp [unitToPx, a1]
  · rw [show unitToPx w h v "cm" = v * (96 / (254 / 100)) by simp [unitToPx], a2]; norm_num
  · rw [show unitToPx w h v "mm" = v * (96 / (254 / 10)) by simp [unitToPx], a3]; norm_num
  · rw [show unitToPx w h v "q" = v * (96 / (1016 / 10)) by simp [unitToPx], a4]; norm_num
  · rw [show unitToPx w h v "pt" = v * (96 / 72) by simp [unitToPx], a5]
  · rw [show unitToPx w h v "pc" = v * (96 / 6) by simp [unitToPx], a6]; norm_num
  · simp [unitToPx, e8]
  · simp [unitToPx, e9]
  · rw [show unitToPx w h v "vw" = v * w / 100 by simp [unitToPx], ← f1, mul_div_assoc, mul_div_cancel_left₀ _ (by norm_num)]
  · rw [show unitToPx w h v "svw" = v * w / 100 by simp [unitToPx], ← f2, mul_div_assoc, mul_div_cancel_left₀ _ (by norm_num)]
  · rw [show unitToPx w h v "lvw" = v * w / 100 by simp [unitToPx], ← f3, mul_div_assoc, mul_div_cancel_left₀ _ (by norm_num)]
  · rw [show unitToPx w h v "dvw" = v * w / 100 by simp [unitToPx], ← f4, mul_div_assoc, mul_div_cancel_left₀ _ (by norm_num)]
  · rw [show unitToPx w h v "vh" = v * h / 100 by simp [unitToPx], ← g1, mul_div_assoc, mul_div_cancel_left₀ _ (by norm_num)]
  · rw [show unitToPx w h v "svh" = v * h / 100 by simp [unitToPx], ← g2, mul_div_assoc, mul_div_cancel_left₀ _ (by norm_num)]
  · rw [show unitToPx w h v "lvh" = v * h / 100 by simp [unitToPx], ← g3, mul_div_assoc, mul_div_cancel_left₀ _ (by norm_num)]
  · rw [show unitToPx w h v "dvh" = v * h / 100 by simp [unitToPx], ← g4, mul_div_assoc, mul_div_cancel_left₀ _ (by norm_num)]
  · rw [show unitToPx w h v "vmin" = v * min w h / 100 by simp [unitToPx], ← k1, mul_div_assoc, mul_div_cancel_left₀ _ (by norm_num)]
  · rw [show unitToPx w h v "vmax" = v * max w h / 100 by simp [unitToPx], ← k2, mul_div_assoc, mul_div_cancel_left₀ _ (by norm_num)]

theorem collect_lengths {w h : ℚ} {c : String → ℚ} (s : Sizes w h 16 16 c) : ∀ (vs : List Value), Lengths vs →
    ∃ l, collect w h (vs.filter (· ≠ .comma)) = some l ∧ List.Forall₂ (Length c) (vs.filter (· ≠ .comma)) l := by
  intro vs
  induction vs with
  | nil => intro _; exact ⟨[], rfl, .nil⟩
  | cons v vs ih =>
    intro hl
    obtain ⟨l, e, f⟩ := ih (fun x hx => hl x (by simp [hx]))
    rcases hl v (by simp) with rfl | rfl | ⟨x, u, rfl, hu⟩
    · exact ⟨l, by simpa using e, by simpa using f⟩
    · refine ⟨0 :: l, ?_, ?_⟩
      · rw [List.filter_cons_of_pos (by simp)]; simp only [collect, e, operandPx]
      · rw [List.filter_cons_of_pos (by simp)]; exact .cons .zero f
    · refine ⟨x * c u :: l, ?_, ?_⟩
      · rw [List.filter_cons_of_pos (by simp)]; simp only [collect, e, operandPx, unitToPx_eq s x hu]
      · rw [List.filter_cons_of_pos (by simp)]; exact .cons .unit f

theorem foldMin_from : ∀ (l : List ℚ) (y : ℚ), ∃ m, l.foldl (fun a x => match a with | none => some x | some y => some (min y x)) (some y) = some m ∧
    (m = y ∨ m ∈ l) ∧ m ≤ y ∧ ∀ x ∈ l, m ≤ x := by
  intro l
  induction l with
  | nil => intro y; exact ⟨y, rfl, .inl rfl, le_refl _, by simp⟩
  | cons x l ih =>
    intro y
    obtain ⟨m, e, h1, h2, h3⟩ := ih (min y x)
    refine ⟨m, e, ?_, le_trans h2 (min_le_left _ _), ?_⟩
    · rcases h1 with h1 | h1
      · rcases min_choice y x with hc | hc
        · exact .inl (h1.trans hc)
        · exact .inr (by rw [h1, hc]; simp)
      · exact .inr (by simp [h1])
    · intro z hz
      rcases List.mem_cons.1 hz with rfl | hz
      · exact le_trans h2 (min_le_right _ _)
      · exact h3 z hz

theorem foldMax_from : ∀ (l : List ℚ) (y : ℚ), ∃ m, l.foldl (fun a x => match a with | none => some x | some y => some (max y x)) (some y) = some m ∧
    (m = y ∨ m ∈ l) ∧ y ≤ m ∧ ∀ x ∈ l, x ≤ m := by
  intro l
  induction l with
  | nil => intro y; exact ⟨y, rfl, .inl rfl, le_refl _, by simp⟩
  | cons x l ih =>
    intro y
    obtain ⟨m, e, h1, h2, h3⟩ := ih (max y x)
    refine ⟨m, e, ?_, le_trans (le_max_left _ _) h2, ?_⟩
    · rcases h1 with h1 | h1
      · rcases max_choice y x with hc | hc
        · exact .inl (h1.trans hc)
        · exact .inr (by rw [h1, hc]; simp)
      · exact .inr (by simp [h1])
    · intro z hz
      rcases List.mem_cons.1 hz with rfl | hz
      · exact le_trans (le_max_right _ _) h2
      · exact h3 z hz

theorem forall2_left {c : String → ℚ} : ∀ {vs : List Value} {l : List ℚ}, List.Forall₂ (Length c) vs l → ∀ x ∈ l, ∃ v ∈ vs, Length c v x := by
  intro vs l h
  induction h with
  | nil => simp
  | @cons v y vs l h1 _ ih =>
    intro x hx
    rcases List.mem_cons.1 hx with rfl | hx
    · exact ⟨v, by simp, h1⟩
    · obtain ⟨u, hu, h⟩ := ih x hx
      exact ⟨u, by simp [hu], h⟩

theorem length_unique {c : String → ℚ} {v : Value} {x y : ℚ} (h1 : Length c v x) (h2 : Length c v y) : x = y := by
  cases h1 <;> cases h2 <;> rfl

theorem forall2_right {c : String → ℚ} : ∀ {vs : List Value} {l : List ℚ}, List.Forall₂ (Length c) vs l → ∀ v ∈ vs, ∀ x, Length c v x → x ∈ l := by
  intro vs l h
  induction h with
  | nil => simp
  | @cons v y vs l h1 _ ih =>
    intro u hu x hx
    rcases List.mem_cons.1 hu with rfl | hu
    · rw [length_unique hx h1]; simp
    · exact List.mem_cons_of_mem _ (ih u hu x hx)

theorem length_ne_comma {c : String → ℚ} {v : Value} {x : ℚ} (h : Length c v x) : v ≠ .comma := by
  cases h <;> simp

/-- **C143** `min()` of lengths is the smallest of them, whatever their units are. Missing: a font size other than 16px
(`C143_em_violated`), other units and spellings (`C143_unit_violated`) and plain numbers (`C143_number_violated`). -/
theorem C143_min_partial {w h : ℚ} {c : String → ℚ} (s : Sizes w h 16 16 c) {vs : List Value} (hl : Lengths vs)
    (hne : ∃ v ∈ vs, v ≠ .comma) :
    ∃ m, resolveMath w h "min" vs = some (.unit m "px") ∧ (∃ v ∈ vs, Length c v m) ∧ ∀ v ∈ vs, ∀ x, Length c v x → m ≤ x := by
  obtain ⟨l, e, f⟩ := collect_lengths s vs hl
  obtain ⟨v0, hv0, hv1⟩ := hne
  cases l with
  | nil =>
    have : v0 ∈ vs.filter (· ≠ .comma) := List.mem_filter.2 ⟨hv0, by simpa using hv1⟩
    rw [List.forall₂_nil_right_iff.1 f] at this
    cases this
  | cons x l =>
    obtain ⟨m, em, h1, h2, h3⟩ := foldMin_from l x
    refine ⟨m, ?_, ?_, ?_⟩
    · unfold resolveMath
      rw [e]
      have e2 : foldMin (x :: l) = some m := em
      simp [e2]
    · obtain ⟨v, hv, hx⟩ := forall2_left f m (by rcases h1 with h | h <;> simp [h])
      exact ⟨v, (List.mem_filter.1 hv).1, hx⟩
    · intro v hv y hy
      have := forall2_right f v (List.mem_filter.2 ⟨hv, by simpa using length_ne_comma hy⟩) y hy
      rcases List.mem_cons.1 this with rfl | h
      · exact h2
      · exact h3 y h

/-- **C143** `max()` of lengths is the largest of them; see `C143_min_partial` for what is missing. -/
theorem C143_max_partial {w h : ℚ} {c : String → ℚ} (s : Sizes w h 16 16 c) {vs : List Value} (hl : Lengths vs)
    (hne : ∃ v ∈ vs, v ≠ .comma) :
    ∃ m, resolveMath w h "max" vs = some (.unit m "px") ∧ (∃ v ∈ vs, Length c v m) ∧ ∀ v ∈ vs, ∀ x, Length c v x → x ≤ m := by
  obtain ⟨l, e, f⟩ := collect_lengths s vs hl
  obtain ⟨v0, hv0, hv1⟩ := hne
  cases l with
  | nil =>
    have : v0 ∈ vs.filter (· ≠ .comma) := List.mem_filter.2 ⟨hv0, by simpa using hv1⟩
    rw [List.forall₂_nil_right_iff.1 f] at this
    cases this
  | cons x l =>
    obtain ⟨m, em, h1, h2, h3⟩ := foldMax_from l x
    refine ⟨m, ?_, ?_, ?_⟩
    · unfold resolveMath
      rw [e]
      have e2 : foldMax (x :: l) = some m := em
      simp [e2]
    · obtain ⟨v, hv, hx⟩ := forall2_left f m (by rcases h1 with h | h <;> simp [h])
      exact ⟨v, (List.mem_filter.1 hv).1, hx⟩
    · intro v hv y hy
      have := forall2_right f v (List.mem_filter.2 ⟨hv, by simpa using length_ne_comma hy⟩) y hy
      rcases List.mem_cons.1 this with rfl | h
      · exact h2
      · exact h3 y h

/-- **C143** `clamp()` of three lengths is the second one, but not more than the third, and above all not less than the
first; see `C143_min_partial` for what is missing. -/
theorem C143_clamp_partial {w h : ℚ} {c : String → ℚ} (s : Sizes w h 16 16 c) {a b d : Value}
    (hl : Lengths [a, .comma, b, .comma, d]) {lo val hi : ℚ} (ha : Length c a lo) (hb : Length c b val) (hd : Length c d hi) :
    ∃ m, resolveMath w h "clamp" [a, .comma, b, .comma, d] = some (.unit m "px") ∧
      lo ≤ m ∧ (lo ≤ hi → m ≤ hi) ∧ (lo ≤ val → val ≤ hi → m = val) ∧ (m = lo ∨ m = val ∨ m = hi) ∧ (hi < lo → m = lo) := by
  obtain ⟨l, e, f⟩ := collect_lengths s _ hl
  have ef : [a, Value.comma, b, .comma, d].filter (· ≠ .comma) = [a, b, d] := by
    simp [length_ne_comma ha, length_ne_comma hb, length_ne_comma hd]
  rw [ef] at e f
  cases f with | cons f1 f => cases f with | cons f2 f => cases f with | cons f3 f => cases f with | nil =>
  rw [length_unique f1 ha, length_unique f2 hb, length_unique f3 hd] at e
  refine ⟨max (min val hi) lo, ?_, le_max_right _ _, fun h => max_le (min_le_right _ _) h, ?_, ?_, ?_⟩
  · unfold resolveMath
    rw [ef, e]
    simp
  · intro h1 h2
    rw [min_eq_left h2, max_eq_left h1]
  · rcases max_choice (min val hi) lo with h1 | h1
    · rcases min_choice val hi with h2 | h2
      · exact .inr (.inl (h1.trans h2))
      · exact .inr (.inr (h1.trans h2))
    · exact .inl h1
  · intro h1
    exact max_eq_right (le_trans (min_le_right _ _) (le_of_lt h1))

/-- **C143** What cannot be compared here (a percentage, a function) leaves the function as it is. -/
theorem C143_left {w h : ℚ} {f : String} {vs : List Value} (hv : .other ∈ vs) : resolveMath w h f vs = none := by
  have : ∀ l : List Value, .other ∈ l → collect w h l = none := by
    intro l
    induction l with
    | nil => simp
    | cons v l ih =>
      intro hm
      rcases List.mem_cons.1 hm with rfl | hm
      · rfl
      · simp only [collect, ih hm]
        split
        · next h1 _ h2 => cases h2
        · rfl
  unfold resolveMath
  rw [this _ (List.mem_filter.2 ⟨hv, by simp⟩)]

/-- sizes in a viewport of 1000 by 500 -/
def sampleSizes (em : ℚ) (u : String) : ℚ :=
  if u = "px" then 1 else if u = "in" then 96 else if u = "cm" then 9600 / 254 else if u = "mm" then 960 / 254
  else if u = "q" then 240 / 254 else if u = "pt" then 4 / 3 else if u = "pc" then 16 else if u = "em" then em
  else if u = "rem" then 16 else if u ∈ ["vw", "svw", "lvw", "dvw", "vmax"] then 10 else 5

theorem sampleSizes_right (em : ℚ) : Sizes 1000 500 em 16 (sampleSizes em) where
  px := by simp [sampleSizes]
  inch := by simp [sampleSizes]
  cm := by norm_num [sampleSizes]; simp; try norm_num
  mm := by norm_num [sampleSizes]; simp; try norm_num
  q := by norm_num [sampleSizes]; simp; try norm_num
  pt := by norm_num [sampleSizes]; simp; try norm_num
  pc := by norm_num [sampleSizes]; simp; try norm_num
  em := by simp [sampleSizes]
  rem := by simp [sampleSizes]
  width := by
    intro u hu
    simp only [List.mem_cons, List.not_mem_nil, or_false] at hu
    rcases hu with rfl | rfl | rfl | rfl <;> simp [sampleSizes] <;> norm_num
  height := by
    intro u hu
    simp only [List.mem_cons, List.not_mem_nil, or_false] at hu
    rcases hu with rfl | rfl | rfl | rfl <;> simp [sampleSizes] <;> norm_num
  vmin := by simp [sampleSizes]; norm_num
  vmax := by simp [sampleSizes]; norm_num

example : Sizes 1000 500 16 16 (sampleSizes 16) ∧ Lengths [.unit 2 "rem", .comma, .unit 5 "vw", .comma, .unit 3 "pc"] ∧
    resolveMath 1000 500 "clamp" [.unit 2 "rem", .comma, .unit 5 "vw", .comma, .unit 3 "pc"] = some (.unit 48 "px") ∧
    resolveMath 1000 500 "min" [.unit 2 "rem", .comma, .unit 5 "vw", .comma, .unit 3 "pc"] = some (.unit 32 "px") ∧
    resolveMath 1000 500 "max" [.unit 2 "rem", .comma, .unit 5 "vw", .comma, .unit 3 "pc"] = some (.unit 50 "px") := by
  refine ⟨sampleSizes_right 16, ?_, by decide +kernel, by decide +kernel, by decide +kernel⟩
  intro v hv
  simp only [List.mem_cons, List.not_mem_nil, or_false] at hv
  rcases hv with rfl | rfl | rfl | rfl | rfl
  · exact .inr (.inr ⟨2, "rem", rfl, by simp [knownUnits]⟩)
  · exact .inl rfl
  · exact .inr (.inr ⟨5, "vw", rfl, by simp [knownUnits]⟩)
  · exact .inl rfl
  · exact .inr (.inr ⟨3, "pc", rfl, by simp [knownUnits]⟩)

example : resolveMath 1000 500 "min" [.unit 10 "px", .comma, .other] = none := C143_left (by simp)

/-- `em` is taken as 16px: where the font has 20px, `min(2em, 35px)` is 32px instead of 35px -/
theorem C143_em_violated : ∃ c vs, Sizes 1000 500 20 16 c ∧ vs = [.unit 2 "em", .comma, .unit 35 "px"] ∧
    resolveMath 1000 500 "min" vs = some (.unit 32 "px") ∧ ∀ v ∈ vs, ∀ x, Length c v x → 35 ≤ x := by
  refine ⟨sampleSizes 20, _, sampleSizes_right 20, rfl, by decide +kernel, ?_⟩
  intro v hv x hx
  simp only [List.mem_cons, List.not_mem_nil, or_false] at hv
  rcases hv with rfl | rfl | rfl
  · cases hx; simp [sampleSizes]; norm_num
  · cases hx
  · cases hx; simp [sampleSizes]

/-- units are compared in lower case only, though `Q` is the name of a quarter millimetre: `min(100Q, 96px)` is 96px -/
theorem C143_unit_violated : resolveMath 1000 500 "min" [.unit 100 "Q", .comma, .unit 96 "px"] = some (.unit 96 "px") ∧
    resolveMath 1000 500 "min" [.unit 100 "q", .comma, .unit 96 "px"] = some (.unit (12000 / 127) "px") := by
  refine ⟨by decide +kernel, by decide +kernel⟩

/-- numbers become lengths: `min(1, 2)` is 1px -/
theorem C143_number_violated : ∀ w h : ℚ, resolveMath w h "min" [.number 1, .comma, .number 2] = some (.unit 1 "px") := by
  intro w h
  simp [resolveMath, collect, operandPx, foldMin]

end Verif.CssMath
