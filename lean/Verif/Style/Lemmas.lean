import Verif.Style.Spec

/-! # Computed styles: lemmas -/

namespace Verif.Style

variable {F : Type} [Num F]

theorem meta_in_range (p : Property) : p.id < (properties F).length := by
  have h : (properties F).length = 78 := rfl
  rw [h]
  cases p <;> decide

theorem meta_initial (p : Property) (h : ¬ IsBorderColor p) : (p.meta F).initial = cssInitial F p := by
  cases p <;> first | rfl | exact absurd (by decide) h

theorem meta_inherited (p : Property) (h : p ≠ .textWrap) (h' : p ≠ .textDecorationLine) :
    (p.meta F).inherited = decide (p ∈ cssInherited) := by
  cases p <;> first | rfl | exact absurd rfl h | exact absurd rfl h'

theorem own_eq (n : Node F) (c : Value F) (p : Property)
    (h : n.important p = true → (n.sheet p).isSome → n.inline p = none) :
    ownStyle n c p = match cascaded n p with
      | some (.val v) => some v
      | some .currentColor => some (if usesColor p then c else .color 0 0 0 255)
      | none => none := by
  unfold ownStyle cascaded
  by_cases hi : n.important p = true ∧ (n.sheet p).isSome
  · rw [if_pos hi, h hi.1 hi.2]
    cases hs : n.sheet p with
    | none => rw [hs] at hi; simp at hi
    | some d => cases d <;> simp; split <;> rfl
  · rw [if_neg hi]
    cases n.inline p with
    | some v => simp
    | none =>
      cases n.sheet p with
      | some d => cases d <;> simp; split <;> rfl
      | none => cases n.attr p <;> simp

/-- What `get_style` does with a value of the node itself. -/
def resolve (n : Node F) (up : List (Node F)) (p : Property) (raw : Value F) : Value F :=
  match raw with
  | .unit v .rem => .unit (mul v sixteen) .px
  | .unit v .em =>
    if p = .fontSize then
      match up with
      | q :: qs => .unit (mul v (pxOr16 (getStyle q qs .fontSize))) .px
      | [] => .unit (mul v sixteen) .px
    else .unit (mul v (pxOr16 (getStyle n up .fontSize))) .px
  | _ => raw

/-- What `get_style` does without a value of the node itself. -/
def fallback (up : List (Node F)) (p : Property) : Value F :=
  if (p.meta F).inherited then
    match up with
    | q :: qs => getStyle q qs p
    | [] => (p.meta F).initial
  else (p.meta F).initial

theorem step_plain (n : Node F) (up : List (Node F)) (p : Property) (hp : peerStyle p = none) :
    getStyle n up p = match ownStyle n
        (if usesColor p = true then getStyle n up .color else .color 0 0 0 255) p with
      | some raw => resolve n up p raw
      | none => fallback up p := by
  rw [getStyle.eq_def]
  cases p <;> first | rfl | (exact absurd hp (by simp [peerStyle]))

theorem step_width (n : Node F) (up : List (Node F)) (p q : Property) (hp : peerStyle p = some q) :
    getStyle n up p = if noBorder (getStyle n up q) then .unit zero .px
      else match ownStyle n
        (if usesColor p = true then getStyle n up .color else .color 0 0 0 255) p with
      | some raw => resolve n up p raw
      | none => fallback up p := by
  rw [getStyle.eq_def]
  cases p <;> simp only [peerStyle, Option.some.injEq, reduceCtorEq] at hp <;> subst hp <;> rfl

/-- The value has no `em` and no `rem`. -/
def Settled (v : Value F) : Prop := ∀ x, v ≠ .unit x .em ∧ v ≠ .unit x .rem

theorem resolve_settled (n : Node F) (up : List (Node F)) (p : Property) (raw : Value F) :
    Settled (resolve n up p raw) := by
  intro x
  cases raw with
  | unit v u =>
    cases u with
    | em =>
      unfold resolve
      dsimp only
      split
      · split <;> exact ⟨by simp, by simp⟩
      · exact ⟨by simp, by simp⟩
    | _ => exact ⟨by simp [resolve], by simp [resolve]⟩
  | _ => exact ⟨by simp [resolve], by simp [resolve]⟩

theorem resolve_of_settled (n : Node F) (up : List (Node F)) (p : Property) (v : Value F)
    (h : Settled v) : resolve n up p v = v := by
  cases v with
  | unit x u =>
    cases u with
    | em => exact absurd rfl (h x).1
    | rem => exact absurd rfl (h x).2
    | _ => rfl
  | _ => rfl

theorem initial_settled (p : Property) : Settled (p.meta F).initial := by
  intro x
  have : ∀ y, (p.meta F).initial = .unit y .em ∨ (p.meta F).initial = .unit y .rem → False := by
    intro y h
    cases p <;> rcases h with h | h <;> cases h
  exact ⟨fun h => this x (.inl h), fun h => this x (.inr h)⟩

theorem settled (n : Node F) (up : List (Node F)) (p : Property) : Settled (getStyle n up p) := by
  induction up generalizing n with
  | nil =>
    have hfb : Settled (fallback ([] : List (Node F)) p) := by
      unfold fallback
      split <;> exact initial_settled p
    cases hp : peerStyle p with
    | none =>
      rw [step_plain _ _ _ hp]
      split
      · exact resolve_settled _ _ _ _
      · exact hfb
    | some q =>
      rw [step_width _ _ _ _ hp]
      split
      · intro x; simp
      · split
        · exact resolve_settled _ _ _ _
        · exact hfb
  | cons m ms ih =>
    have hfb : Settled (fallback (m :: ms) p) := by
      unfold fallback
      split
      · exact ih m
      · exact initial_settled p
    cases hp : peerStyle p with
    | none =>
      rw [step_plain _ _ _ hp]
      split
      · exact resolve_settled _ _ _ _
      · exact hfb
    | some q =>
      rw [step_width _ _ _ _ hp]
      split
      · intro x; simp
      · split
        · exact resolve_settled _ _ _ _
        · exact hfb

theorem fontAt_snoc (l : List (Node F)) (h : l ≠ []) (n : Node F) :
    fontAt (l ++ [n]) = fontPx (rootPx l) (fontAt l) n := by
  cases l with
  | nil => exact absurd rfl h
  | cons r b => simp [fontAt, rootPx]

theorem rootPx_snoc (l : List (Node F)) (h : l ≠ []) (n : Node F) : rootPx (l ++ [n]) = rootPx l := by
  cases l with
  | nil => exact absurd rfl h
  | cons r b => rfl

omit [Num F] in
theorem PlainFonts.tail {n : Node F} {up : List (Node F)} (h : PlainFonts (n :: up)) : PlainFonts up :=
  fun m hm => h m (List.mem_cons_of_mem _ hm)

omit [Num F] in
theorem NoneOverruled.tail {n : Node F} {up : List (Node F)} (h : NoneOverruled (n :: up)) :
    NoneOverruled up := fun m hm => h m (List.mem_cons_of_mem _ hm)

omit [Num F] in
theorem CurrentColorPlain.tail {n : Node F} {up : List (Node F)} (h : CurrentColorPlain (n :: up)) :
    CurrentColorPlain up := fun m hm => h m (List.mem_cons_of_mem _ hm)

theorem RemsPlain.tail {n q : Node F} {qs : List (Node F)} (h : RemsPlain (n :: q :: qs)) :
    RemsPlain (q :: qs) := by
  rcases h with h | h
  · left
    rw [List.reverse_cons, rootPx_snoc _ (by simp)] at h
    exact h
  · right
    exact fun m hm => h m (List.mem_cons_of_mem _ hm)

theorem font_eq (n : Node F) (up : List (Node F)) (hf : PlainFonts (n :: up))
    (hr : RemsPlain (n :: up)) (ho : NoneOverruled (n :: up)) :
    getStyle n up .fontSize = .unit (fontAt (n :: up).reverse) .px := by
  induction up generalizing n with
  | nil =>
    rw [step_plain _ _ _ rfl, own_eq _ _ _ (ho n (by simp) _)]
    have hx := hf n (by simp)
    simp only [List.reverse_cons, List.reverse_nil, List.nil_append, fontAt, List.foldl_nil, fontPx]
    cases hc : cascaded n .fontSize with
    | none => rfl
    | some d =>
      obtain ⟨v, u, rfl, hu⟩ := hx d hc
      cases u with
      | px => rfl
      | em => rfl
      | rem => rfl
      | percent => exact absurd rfl hu
  | cons q qs ih =>
    have ih := ih q hf.tail hr.tail ho.tail
    rw [step_plain _ _ _ rfl, own_eq _ _ _ (ho n (by simp) _)]
    have hx := hf n (by simp)
    rw [List.reverse_cons, fontAt_snoc _ (by simp)]
    unfold fontPx
    cases hc : cascaded n .fontSize with
    | none =>
      show fallback (q :: qs) .fontSize = _
      exact ih
    | some d =>
      obtain ⟨v, u, rfl, hu⟩ := hx d hc
      cases u with
      | px => rfl
      | em =>
        show Value.unit (mul v (pxOr16 (getStyle q qs .fontSize))) .px = _
        rw [ih]; rfl
      | rem =>
        show Value.unit (mul v sixteen) .px = Value.unit (mul v (rootPx (q :: qs).reverse)) .px
        rcases hr.tail with h | h
        · rw [h]
        · rcases hr with h' | h'
          · rw [List.reverse_cons, rootPx_snoc _ (by simp)] at h'; rw [h']
          · exact absurd hc (h' n (by simp) _ _)
      | percent => exact absurd rfl hu

/-- A value of the node itself is made absolute. -/
theorem resolve_eq (n : Node F) (up : List (Node F)) (p : Property) (v : Value F)
    (hf : PlainFonts (n :: up)) (hr : RemsPlain (n :: up)) (ho : NoneOverruled (n :: up))
    (hp : p ≠ .fontSize) (hc : cascaded n p = some (.val v)) :
    resolve n up p v = absolute (rootPx (n :: up).reverse) (fontAt (n :: up).reverse) v := by
  cases v with
  | unit v u =>
    cases u with
    | px => rfl
    | percent => rfl
    | em =>
      show (if p = .fontSize then _ else Value.unit (mul v (pxOr16 (getStyle n up .fontSize))) .px) = _
      rw [if_neg hp, font_eq n up hf hr ho]; rfl
    | rem =>
      show Value.unit (mul v sixteen) .px = Value.unit (mul v (rootPx (n :: up).reverse)) .px
      rcases hr with h | h
      · rw [h]
      · exact absurd hc (h n (by simp) _ _)
  | _ => rfl

theorem color_eq (n : Node F) (up : List (Node F)) (hf : PlainFonts (n :: up))
    (hr : RemsPlain (n :: up)) (ho : NoneOverruled (n :: up)) (hcc : CurrentColorPlain (n :: up)) :
    getStyle n up .color = colorOf (n :: up) := by
  induction up generalizing n with
  | nil =>
    rw [step_plain _ _ _ rfl, own_eq _ _ _ (ho n (by simp) _)]
    simp only [colorOf]
    cases hc : cascaded n .color with
    | none => rfl
    | some d =>
      cases d with
      | val v => exact resolve_eq n [] .color v hf hr ho (by decide) hc
      | currentColor => exact absurd rfl (hcc n (by simp) _ _ hc (by simp)).2
  | cons q qs ih =>
    have ih := ih q hf.tail hr.tail ho.tail hcc.tail
    rw [step_plain _ _ _ rfl, own_eq _ _ _ (ho n (by simp) _)]
    rw [colorOf]
    cases hc : cascaded n .color with
    | none => exact ih
    | some d =>
      cases d with
      | val v => exact resolve_eq n (q :: qs) .color v hf hr ho (by decide) hc
      | currentColor => exact absurd rfl (hcc n (by simp) _ _ hc (by simp)).2

theorem usesColor_iff (p : Property) : usesColor p = true ↔ IsColor p ∧ p ≠ .color := by
  unfold IsColor
  cases p <;> decide

/-- The value of a property that is not a font size, before border widths are looked at. -/
theorem body_eq (n : Node F) (up : List (Node F)) (p : Property)
    (hf : PlainFonts (n :: up)) (hr : RemsPlain (n :: up)) (ho : NoneOverruled (n :: up))
    (hcc : CurrentColorPlain (n :: up)) (hp : p ≠ .fontSize) (hw : p ≠ .textWrap)
    (hd : p ≠ .textDecorationLine) (hb : IsBorderColor p → cascaded n p ≠ none)
    (hrec : p ∈ cssInherited → ∀ q qs, up = q :: qs → getStyle q qs p = specified p (q :: qs)) :
    (match ownStyle n (if usesColor p = true then getStyle n up .color else .color 0 0 0 255) p with
      | some raw => resolve n up p raw
      | none => fallback up p) = specified p (n :: up) := by
  rw [own_eq _ _ _ (ho n (by simp) _), specified]
  cases hc : cascaded n p with
  | none =>
    show fallback up p = _
    have hb' : ¬ IsBorderColor p := fun h => hb h hc
    unfold fallback
    rw [meta_inherited p hw hd, meta_initial p hb']
    by_cases hi : p ∈ cssInherited
    · simp only [hi, decide_true, if_true]
      cases up with
      | nil => rfl
      | cons q qs => exact hrec hi q qs rfl
    · simp [hi, hb']
  | some d =>
    cases d with
    | val v => exact resolve_eq n up p v hf hr ho hp hc
    | currentColor =>
      have h := hcc n (by simp) p _ hc (by simp)
      have hu := (usesColor_iff p).2 h
      simp only [hu, if_true, if_neg h.2]
      rw [resolve_of_settled _ _ _ _ (settled n up .color), color_eq n up hf hr ho hcc]

end Verif.Style
