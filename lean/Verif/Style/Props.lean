import Verif.Style.Lemmas

/-! # C123: computed styles -/

namespace Verif.Style

variable {F : Type} [Num F]

/-- C123: what `get_style` answers for a property of a node is its computed value, as CSS defines it
from the root downwards: the declaration that wins, else the value of the parent for an inherited
property, else the initial value; lengths in `em` are multiples of the font size of the node (of its
parent, for the font size itself), lengths in `rem` multiples of that of the root; a border without a
style has no width. Not proved, because it does not hold: percentages and keywords as font sizes
(`C123_percent_font_violated`), `rem` below a root with another font size
(`C123_rem_violated`), `!important` against the `style` attribute (`C123_important_violated`), borders
without a declared colour (`C123_border_color_violated`), `text-wrap` and `text-decoration-line`
(`C123_text_wrap_violated`), and `color: currentcolor` (`C123_color_current_violated`). -/
theorem C123_computed_partial (n : Node F) (up : List (Node F)) (p : Property)
    (hf : PlainFonts (n :: up)) (hr : RemsPlain (n :: up)) (ho : NoneOverruled (n :: up))
    (hcc : CurrentColorPlain (n :: up)) (hw : p ≠ .textWrap) (hd : p ≠ .textDecorationLine)
    (hb : IsBorderColor p → cascaded n p ≠ none) :
    IsComputed (n :: up) p (getStyle n up p) := by
  unfold IsComputed
  by_cases hp : p = .fontSize
  · rw [if_pos hp, hp]; exact font_eq n up hf hr ho
  rw [if_neg hp]
  -- properties without a peer
  have plain : ∀ (up : List (Node F)) (n : Node F) (p : Property), PlainFonts (n :: up) →
      RemsPlain (n :: up) → NoneOverruled (n :: up) → CurrentColorPlain (n :: up) → p ≠ .fontSize →
      p ≠ .textWrap → p ≠ .textDecorationLine → (IsBorderColor p → cascaded n p ≠ none) →
      peerStyle p = none → getStyle n up p = specified p (n :: up) := by
    intro up
    induction up with
    | nil =>
      intro n p hf hr ho hcc hp hw hd hb hq
      rw [step_plain n _ p hq]
      exact body_eq n [] p hf hr ho hcc hp hw hd hb (by intro _ q qs h; cases h)
    | cons m ms ih =>
      intro n p hf hr ho hcc hp hw hd hb hq
      rw [step_plain n _ p hq]
      refine body_eq n (m :: ms) p hf hr ho hcc hp hw hd hb ?_
      intro hi q qs h
      cases h
      refine ih _ p hf.tail hr.tail ho.tail hcc.tail hp hw hd ?_ hq
      intro hbc
      exfalso
      revert hi hbc
      cases p <;> decide
  cases hq : peerStyle p with
  | none =>
    have hno : ∀ s c, (p, s, c) ∉ borderSides := by
      intro s c h
      cases p <;> simp [borderSides] at h <;> simp [peerStyle] at hq
    exact ⟨fun s c h => absurd h (hno s c), fun _ => plain up n p hf hr ho hcc hp hw hd hb hq⟩
  | some q =>
    have hside : ∀ s c, (p, s, c) ∈ borderSides → s = q := by
      intro s c h
      cases p <;> simp [borderSides] at h <;> simp [peerStyle] at hq <;> rw [← hq, h.1]
    have hex : ∃ c, (p, q, c) ∈ borderSides := by
      cases p <;> simp [peerStyle] at hq <;> subst hq <;> simp [borderSides]
    have hqs : q ≠ .fontSize ∧ q ≠ .textWrap ∧ q ≠ .textDecorationLine ∧ ¬ IsBorderColor q ∧
        peerStyle q = none := by
      cases p <;> simp only [peerStyle, Option.some.injEq, reduceCtorEq] at hq <;> subst hq <;> decide
    have hsty : getStyle n up q = specified q (n :: up) :=
      plain up n q hf hr ho hcc hqs.1 hqs.2.1 hqs.2.2.1 (fun h => absurd h hqs.2.2.2.1) hqs.2.2.2.2
    have hni : p ∉ cssInherited := by
      cases p <;> simp only [peerStyle, reduceCtorEq] at hq <;> decide
    have hbody := body_eq n up p hf hr ho hcc hp hw hd hb (fun h => absurd h hni)
    have hundrawn : noBorder (specified q (n :: up)) = true ↔ Undrawn (specified q (n :: up)) := by
      unfold Undrawn
      generalize specified q (n :: up) = w
      cases w with
      | borderStyle b => cases b <;> simp [noBorder]
      | _ => simp [noBorder]
    rw [step_width n up p q hq, hsty]
    refine ⟨?_, ?_⟩
    · intro s c h hu
      rw [hside s c h] at hu
      rw [if_pos (hundrawn.2 hu)]
    · intro h
      obtain ⟨c, hc⟩ := hex
      have := h q c hc
      rw [if_neg (fun hx => this (hundrawn.1 hx))]
      exact hbody

/-- C123: layout and painting are never given a length in `em` or `rem`, whatever is declared. -/
theorem C123_no_relative_lengths (n : Node F) (up : List (Node F)) (p : Property) (v : F) :
    getStyle n up p ≠ .unit v .em ∧ getStyle n up p ≠ .unit v .rem := settled n up p v

/-- C123: a border without a style has no width, whatever else is declared. -/
theorem C123_undrawn_border (n : Node F) (up : List (Node F)) (p s c : Property)
    (h : (p, s, c) ∈ borderSides) (hu : Undrawn (getStyle n up s)) :
    getStyle n up p = .unit zero .px := by
  have hq : peerStyle p = some s := by
    cases p <;> simp [borderSides] at h <;> simp [peerStyle, h.1]
  rw [step_width n up p s hq]
  rcases hu with hu | hu <;> rw [hu] <;> rfl

/-! ## Cases and violations, with natural numbers -/

instance : Num Nat := ⟨(· * ·), 0, 1, 3, 16⟩

/-- A node without any style, such as a text node. -/
def bare : Node Nat := ⟨fun _ => none, fun _ => none, fun _ => false, fun _ => none⟩

/-- A node for which a sheet sets one property. -/
def sets (p : Property) (v : Value Nat) : Node Nat :=
  { bare with sheet := fun q => if q = p then some (.val v) else none }

/-- A node for which a sheet sets two properties. -/
def setsTwo (p : Property) (v : Value Nat) (q : Property) (w : Value Nat) : Node Nat :=
  { bare with sheet := fun r => if r = p then some (.val v) else if r = q then some (.val w) else none }

theorem sets_cascaded (p q : Property) (v : Value Nat) :
    cascaded (sets p v) q = if q = p then some (.val v) else none := by
  unfold cascaded sets bare
  by_cases h : q = p <;> simp [h]

theorem bare_cascaded (q : Property) : cascaded bare q = none := rfl

/-- The hypotheses are met: a text in an element with a font size of 2em, in one with a font size of
20px, in a root with a left margin of 1rem. The text has the font size 40px. -/
example : let line := [bare, sets .fontSize (.unit 2 .em), sets .fontSize (.unit 20 .px),
      sets .marginLeft (.unit 1 .rem)]
    PlainFonts line ∧ RemsPlain line ∧ NoneOverruled line ∧ CurrentColorPlain line ∧
    fontAt line.reverse = 40 ∧
    getStyle bare line.tail .fontSize = .unit 40 .px ∧
    getStyle bare line.tail .marginLeft = .unit 0 .px ∧
    getStyle (sets .marginLeft (.unit 1 .rem)) [] .marginLeft = .unit 16 .px := by
  intro line
  have hf : PlainFonts line := by
    intro n hn d hd
    simp only [line, List.mem_cons, List.not_mem_nil, or_false] at hn
    rcases hn with rfl | rfl | rfl | rfl <;>
      simp only [sets_cascaded, bare_cascaded, if_true, reduceCtorEq, if_false, Option.some.injEq] at hd
    · exact ⟨2, .em, hd.symm, by simp⟩
    · exact ⟨20, .px, hd.symm, by simp⟩
  have hr : RemsPlain line := .inl rfl
  have ho : NoneOverruled line := by
    intro n hn p hi
    simp only [line, List.mem_cons, List.not_mem_nil, or_false] at hn
    rcases hn with rfl | rfl | rfl | rfl <;> simp [sets, bare] at hi
  have hc : CurrentColorPlain line := by
    intro n hn p d hd hv
    simp only [line, List.mem_cons, List.not_mem_nil, or_false] at hn
    exfalso
    rcases hn with rfl | rfl | rfl | rfl <;> simp only [sets_cascaded, bare_cascaded] at hd <;>
      first
      | cases hd
      | (split at hd
         · cases hd; exact hv _ rfl
         · cases hd)
  refine ⟨hf, hr, ho, hc, rfl, font_eq bare line.tail hf hr ho, ?_, ?_⟩
  · rw [step_plain _ _ _ rfl]; rfl
  · rw [step_plain _ _ _ rfl]; rfl

/-- Full property: `rem` is relative to the font size of the root. Violated: it is always 16px, so
`margin-left: 2rem` below a root of 20px is 32px and not 40px. -/
theorem C123_rem_violated :
    let root := sets .fontSize (.unit 20 .px)
    let n := sets .marginLeft (.unit 2 .rem)
    getStyle n [root] .marginLeft = .unit 32 .px ∧
    ¬ IsComputed [n, root] .marginLeft (getStyle n [root] .marginLeft) := by
  intro root n
  have h : getStyle n [root] .marginLeft = .unit 32 .px := by rw [step_plain _ _ _ rfl]; rfl
  refine ⟨h, ?_⟩
  rw [h]
  intro hc
  have := hc.2 (by intro s c h; simp [borderSides] at h)
  exact absurd this (by decide)

/-- Full property: a font size in percent is a part of that of the parent. Violated: a font size that
is not a length counts as 16px for `em`. An element of 200% in one of 20px is 40px high, and 1em of it
is 40px, but the engine takes 16px; a child inherits the percentage, not the size. -/
theorem C123_percent_font_violated :
    let big := sets .fontSize (.unit 20 .px)
    let n := setsTwo .fontSize (.unit 200 .percent) .marginLeft (.unit 1 .em)
    getStyle n [big] .marginLeft = .unit 16 .px ∧
    getStyle bare [n, big] .fontSize = .unit 200 .percent := by
  intro big n
  refine ⟨?_, ?_⟩
  · rw [step_plain _ _ _ rfl]
    show Value.unit (mul 1 (pxOr16 (getStyle n [big] .fontSize))) .px = _
    rw [step_plain _ _ _ rfl]; rfl
  · rw [step_plain _ _ _ rfl]
    show getStyle n [big] .fontSize = _
    rw [step_plain _ _ _ rfl]; rfl

/-- Full property: an `!important` declaration of a sheet wins against the `style` attribute.
Violated: the `style` attribute always wins. -/
theorem C123_important_violated (n : Node F) (up : List (Node F)) (v : Value F) (s : Sheet F)
    (hi : n.inline .display = some v) (_ : n.important .display = true)
    (_ : n.sheet .display = some s) (hv : Settled v) : getStyle n up .display = v := by
  rw [step_plain _ _ _ rfl]
  have : ownStyle n (if usesColor .display = true then getStyle n up .color else .color 0 0 0 255)
      .display = some v := by unfold ownStyle; rw [hi]
  rw [this]
  exact resolve_of_settled _ _ _ _ hv

example : ∃ (n : Node Nat) (v : Value Nat) (s : Sheet Nat), n.inline .display = some v ∧
    n.important .display = true ∧ n.sheet .display = some s ∧ Settled v ∧ s ≠ .val v :=
  ⟨⟨fun _ => some (.display .block), fun _ => some (.val (.display .none)), fun _ => true,
    fun _ => none⟩, .display .block, .val (.display .none), rfl, rfl, rfl, by intro x; simp, by simp⟩

/-- Full property: a border without a declared colour has the colour of the text. Violated: it is
black. -/
theorem C123_border_color_violated (n : Node F) (up : List (Node F)) (p : Property)
    (hp : IsBorderColor p) (hi : n.inline p = none) (hs : n.sheet p = none) (ha : n.attr p = none) :
    getStyle n up p = .color 0 0 0 255 := by
  have hq : peerStyle p = none := by revert hp; cases p <;> decide
  rw [step_plain _ _ _ hq]
  have : ownStyle n (if usesColor p = true then getStyle n up .color else .color 0 0 0 255) p = none := by
    unfold ownStyle; rw [hi, hs, ha]
  rw [this]
  have : p = .borderTopColor ∨ p = .borderRightColor ∨ p = .borderBottomColor ∨ p = .borderLeftColor := by
    simpa [IsBorderColor, borderSides] using hp
  rcases this with rfl | rfl | rfl | rfl <;> rfl

/-- The hypotheses are met by a node with red text. -/
example : getStyle (sets .color (.color 255 0 0 255)) [] .color = .color 255 0 0 255 ∧
    getStyle (sets .color (.color 255 0 0 255)) [] .borderTopColor = .color 0 0 0 255 :=
  ⟨by rw [step_plain _ _ _ rfl]; rfl,
   C123_border_color_violated _ _ _ (by decide) rfl rfl rfl⟩

/-- Full property: `text-wrap` is inherited and `text-decoration-line` is not. Violated: it is the
other way round, so that `text-wrap: nowrap` has no effect on the text in the element. -/
theorem C123_text_wrap_violated :
    getStyle bare [sets .textWrap (.textWrap .noWrap)] .textWrap = .textWrap .wrap ∧
    getStyle bare [sets .textDecorationLine (.keyword "underline")] .textDecorationLine =
      .keyword "underline" := by
  refine ⟨by rw [step_plain _ _ _ rfl]; rfl, ?_⟩
  rw [step_plain _ _ _ rfl]
  show getStyle (sets .textDecorationLine (.keyword "underline")) [] .textDecorationLine = _
  rw [step_plain _ _ _ rfl]; rfl

/-- Full property: `color: currentcolor` is the colour of the parent. Violated: it is black. -/
theorem C123_color_current_violated (n : Node F) (up : List (Node F)) (hi : n.inline .color = none)
    (hs : n.sheet .color = some .currentColor) : getStyle n up .color = .color 0 0 0 255 := by
  rw [step_plain _ _ _ rfl]
  have : ownStyle n (if usesColor .color = true then getStyle n up .color else .color 0 0 0 255)
      .color = some (.color 0 0 0 255) := by unfold ownStyle; rw [hi, hs]; rfl
  rw [this]; rfl

example : getStyle { bare with sheet := fun _ => some .currentColor } [sets .color (.color 255 0 0 255)]
    .color = .color 0 0 0 255 := C123_color_current_violated _ _ rfl rfl

end Verif.Style
