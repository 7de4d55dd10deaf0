import Verif.Style.InlineLemmas

/-! # C124: what the `style` attribute of an element says -/

namespace Verif.Style

variable {F : Type} [Num F]

/-! ## Each declaration -/

theorem holds_absent (q : Char) (pat s : List Char) (h : q ∉ s) : holds (q :: pat) s = false := by
  induction s with
  | nil => rfl
  | cons x xs ih =>
    simp only [List.mem_cons, not_or] at h
    simp [holds, List.isPrefixOf, h.1, ih h.2]

theorem no_var (s : List Char) (h : ∀ c ∈ s, lower c ≠ 'v') :
    holds "var(".toList (s.map lower) = false := by
  refine holds_absent 'v' ['a', 'r', '('] _ ?_
  intro hm
  obtain ⟨c, hc, he⟩ := List.mem_map.1 hm
  exact h c hc he

theorem number_lower (num : List Char) (h : CssNumber num) : ∀ c ∈ num, lower c ≠ 'v' := by
  intro c hc
  rcases (number_chars num h).2 c hc with rfl | rfl | rfl | hd
  · decide
  · decide
  · decide
  · simp only [isDigit, Bool.and_eq_true, decide_eq_true_eq] at hd
    unfold lower
    rw [if_neg (by simp; omega)]
    rintro rfl
    exact absurd hd (by decide)

theorem unit_lower (num u : List Char) (h : CssNumber num) (hu : ∀ c ∈ u, lower c ≠ 'v') :
    ∀ c ∈ num ++ u, lower c ≠ 'v' := by
  intro c hc
  rcases List.mem_append.1 hc with hc | hc
  · exact number_lower num h c hc
  · exact hu c hc

theorem hex_facts (c : Char) (k : Nat) (h : Hex c k) :
    hexDigit c = some k ∧ c.utf8Size = 1 ∧ c ≠ '#' ∧ lower c ≠ 'v' ∧ c ≠ '+' := by
  cases h with
  | digit k => revert k; decide
  | small k => revert k; decide
  | large k => revert k; decide

theorem hex_pair (c d : Char) (k l : Nat) (h : Hex c k) (h' : Hex d l) :
    hexByte [c, d] = some (16 * k + l) := by
  have h1 := hex_facts c k h
  have h2 := hex_facts d l h'
  unfold hexByte
  split
  · rename_i he; cases he
  · rename_i he; cases he; exact absurd rfl h1.2.2.2.2
  · rename_i he
    cases he
    rw [h1.1, h2.1]
    simp; omega
  · rename_i hne; exact absurd rfl (hne c d)

theorem dropHashes_one (s : List Char) (h : ∃ x xs, s = x :: xs ∧ x ≠ '#') :
    dropHashes ('#' :: s) = s := by
  obtain ⟨x, xs, rfl, hx⟩ := h
  have : (x == '#') = false := by simpa using hx
  simp [dropHashes, List.dropWhile, this]

omit [Num F] in
theorem colorValue_hex (x : Ext F) (s : List Char) : colorValue x ('#' :: s) = hexColor ('#' :: s) := by
  unfold colorValue
  rw [if_neg]
  · rfl
  · intro h
    have : lower '#' = 't' := by
      have := congrArg List.head? h
      simpa using this
    exact absurd this (by decide)

omit [Num F] in
theorem hexColor3 (a b c : Char) (k l m : Nat) (ha : Hex a k) (hb : Hex b l) (hc : Hex c m) :
    (hexColor ['#', a, b, c] : Option (Value F)) = some (.color (17 * k) (17 * l) (17 * m) 255) := by
  have h1 := hex_facts a k ha
  have h2 := hex_facts b l hb
  have h3 := hex_facts c m hc
  unfold hexColor
  rw [dropHashes_one _ ⟨a, _, rfl, h1.2.2.1⟩]
  simp [bytes, h1.2.1, h2.2.1, h3.2.1, cuts, cutAt, hex_pair _ _ _ _ ha ha, hex_pair _ _ _ _ hb hb,
    hex_pair _ _ _ _ hc hc]
  omega

omit [Num F] in
theorem hexColor6 (a a' b b' c c' : Char) (k k' l l' m m' : Nat) (ha : Hex a k) (ha' : Hex a' k')
    (hb : Hex b l) (hb' : Hex b' l') (hc : Hex c m) (hc' : Hex c' m') :
    (hexColor ['#', a, a', b, b', c, c'] : Option (Value F)) =
      some (.color (16 * k + k') (16 * l + l') (16 * m + m') 255) := by
  have h1 := hex_facts a k ha
  have h1' := hex_facts a' k' ha'
  have h2 := hex_facts b l hb
  have h2' := hex_facts b' l' hb'
  have h3 := hex_facts c m hc
  have h3' := hex_facts c' m' hc'
  unfold hexColor
  rw [dropHashes_one _ ⟨a, _, rfl, h1.2.2.1⟩]
  simp [bytes, h1.2.1, h2.2.1, h3.2.1, h1'.2.1, h2'.2.1, h3'.2.1, cuts, cutAt, hex_pair _ _ _ _ ha ha',
    hex_pair _ _ _ _ hb hb', hex_pair _ _ _ _ hc hc']

omit [Num F] in
theorem hexColor8 (a a' b b' c c' d d' : Char) (k k' l l' m m' o o' : Nat) (ha : Hex a k) (ha' : Hex a' k')
    (hb : Hex b l) (hb' : Hex b' l') (hc : Hex c m) (hc' : Hex c' m') (hd : Hex d o) (hd' : Hex d' o') :
    (hexColor ['#', a, a', b, b', c, c', d, d'] : Option (Value F)) =
      some (.color (16 * k + k') (16 * l + l') (16 * m + m') (16 * o + o')) := by
  have h1 := hex_facts a k ha
  have h1' := hex_facts a' k' ha'
  have h2 := hex_facts b l hb
  have h2' := hex_facts b' l' hb'
  have h3 := hex_facts c m hc
  have h3' := hex_facts c' m' hc'
  have h4 := hex_facts d o hd
  have h4' := hex_facts d' o' hd'
  unfold hexColor
  rw [dropHashes_one _ ⟨a, _, rfl, h1.2.2.1⟩]
  simp [bytes, h1.2.1, h2.2.1, h3.2.1, h1'.2.1, h2'.2.1, h3'.2.1, h4.2.1, h4'.2.1, cuts, cutAt,
    hex_pair _ _ _ _ ha ha', hex_pair _ _ _ _ hb hb', hex_pair _ _ _ _ hc hc', hex_pair _ _ _ _ hd hd']

theorem lengths_found : ∀ e ∈ cssLengths, lengthKeys.lookup e.1 = some e.2 := by decide +kernel

theorem colors_found : ∀ e ∈ cssColors, lengthKeys.lookup e.1 = none ∧ colorKeys.lookup e.1 = some e.2 := by
  decide +kernel

theorem borders_found : ∀ e ∈ cssBorderStyles, lengthKeys.lookup e.1 = none ∧
    colorKeys.lookup e.1 = none ∧ borderStyleKeys.lookup e.1 = some e.2 := by decide +kernel

theorem border_words : ∀ e ∈ cssBorderWords, holds "var(".toList (e.1.toList.map lower) = false ∧
    borderStyleOf e.1 = e.2 := by decide +kernel

theorem display_words : ∀ e ∈ cssDisplays, holds "var(".toList (e.1.toList.map lower) = false := by
  decide +kernel

theorem other_keys : ∀ k ∈ ["display", "margin"], lengthKeys.lookup k = none ∧ colorKeys.lookup k = none ∧
    borderStyleKeys.lookup k = none ∧ keywordKeys.lookup k = none ∧ numberKeys.lookup k = none := by
  decide +kernel

omit [Num F] in
theorem display_found : ∀ e ∈ cssDisplays, (displayValue e.1 : Value F) = .display e.2 := by
  intro e he
  simp only [cssDisplays, List.mem_cons, List.not_mem_nil, or_false] at he
  rcases he with rfl | rfl | rfl | rfl | rfl | rfl | rfl | rfl | rfl | rfl | rfl | rfl | rfl | rfl | rfl <;> rfl

theorem words_one (s : List Char) (hn : s ≠ []) (h : ∀ c ∈ s, ws c = false) : words s = [s] := by
  induction s with
  | nil => exact absurd rfl hn
  | cons y ys ih =>
    cases ys with
    | nil => simp [words, h y (by simp)]
    | cons z zs =>
      have ih := ih (by simp) (fun c hc => h c (by simp [hc]))
      unfold words
      simp only [h y (by simp), h z (by simp), Bool.false_eq_true, if_false, ih]

theorem apply_length (x : Ext F) (st : NodeStyle F) (name : String) (p : Property) (s : List Char)
    (h : (name, p) ∈ cssLengths) (hv : ∀ c ∈ s, lower c ≠ 'v') :
    applyKv x st name s = some (st.set p (styleValue x s)) := by
  unfold applyKv
  have e1 := lengths_found _ h
  simp only at e1
  rw [no_var s hv, e1]
  rfl

theorem apply_color (x : Ext F) (st : NodeStyle F) (name : String) (p : Property) (s : List Char)
    (v : Value F) (h : (name, p) ∈ cssColors) (hv : ∀ c ∈ s, lower c ≠ 'v')
    (hc : colorValue x s = some v) :
    applyKv x st name s = some (st.set p v) := by
  unfold applyKv
  have e1 := colors_found _ h
  simp only at e1
  rw [no_var s hv, e1.1, e1.2, hc]
  rfl

theorem means_apply (x : Ext F) (st : NodeStyle F) (name : String) (value : List Char)
    (l : List (Property × Value F)) (h : Means x name value l) :
    applyKv x st name value = some (st.sets l) := by
  cases h with
  | px hm hn =>
    rw [apply_length x st _ _ _ hm (unit_lower _ _ hn (by decide)), value_px x _ hn]; rfl
  | em hm hn =>
    rw [apply_length x st _ _ _ hm (unit_lower _ _ hn (by decide)), value_em x _ hn]; rfl
  | rem hm hn =>
    rw [apply_length x st _ _ _ hm (unit_lower _ _ hn (by decide)), value_rem x _ hn]; rfl
  | hex3 hm ha hb hc =>
    refine apply_color x st _ _ _ _ hm ?_ ?_
    · have f1 := (hex_facts _ _ ha).2.2.2.1
      have f2 := (hex_facts _ _ hb).2.2.2.1
      have f3 := (hex_facts _ _ hc).2.2.2.1
      simp only [List.mem_cons, List.not_mem_nil, or_false]
      rintro c (rfl | rfl | rfl | rfl)
      · decide
      all_goals assumption
    · rw [colorValue_hex]; exact hexColor3 _ _ _ _ _ _ ha hb hc
  | hex6 hm ha ha' hb hb' hc hc' =>
    refine apply_color x st _ _ _ _ hm ?_ ?_
    · have f1 := (hex_facts _ _ ha).2.2.2.1
      have f2 := (hex_facts _ _ hb).2.2.2.1
      have f3 := (hex_facts _ _ hc).2.2.2.1
      have f4 := (hex_facts _ _ ha').2.2.2.1
      have f5 := (hex_facts _ _ hb').2.2.2.1
      have f6 := (hex_facts _ _ hc').2.2.2.1
      simp only [List.mem_cons, List.not_mem_nil, or_false]
      rintro c (rfl | rfl | rfl | rfl | rfl | rfl | rfl)
      · decide
      all_goals assumption
    · rw [colorValue_hex]; exact hexColor6 _ _ _ _ _ _ _ _ _ _ _ _ ha ha' hb hb' hc hc'
  | hex8 hm ha ha' hb hb' hc hc' hd hd' =>
    refine apply_color x st _ _ _ _ hm ?_ ?_
    · have f1 := (hex_facts _ _ ha).2.2.2.1
      have f2 := (hex_facts _ _ hb).2.2.2.1
      have f3 := (hex_facts _ _ hc).2.2.2.1
      have f4 := (hex_facts _ _ ha').2.2.2.1
      have f5 := (hex_facts _ _ hb').2.2.2.1
      have f6 := (hex_facts _ _ hc').2.2.2.1
      have f7 := (hex_facts _ _ hd).2.2.2.1
      have f8 := (hex_facts _ _ hd').2.2.2.1
      simp only [List.mem_cons, List.not_mem_nil, or_false]
      rintro c (rfl | rfl | rfl | rfl | rfl | rfl | rfl | rfl | rfl)
      · decide
      all_goals assumption
    · rw [colorValue_hex]
      exact hexColor8 _ _ _ _ _ _ _ _ _ _ _ _ _ _ _ _ ha ha' hb hb' hc hc' hd hd'
  | borderStyle hm hw =>
    unfold applyKv
    have e1 := borders_found _ hm
    have e2 := border_words _ hw
    simp only at e1 e2
    rw [e2.1, e1.1, e1.2.1, e1.2.2, String.ofList_toList, e2.2]
    rfl
  | display hw =>
    unfold applyKv
    have e1 := other_keys "display" (by simp)
    rw [display_words _ hw, e1.1, e1.2.1, e1.2.2.1, e1.2.2.2.1, e1.2.2.2.2, String.ofList_toList,
      display_found _ hw]
    rfl
  | @margin num hn =>
    unfold applyKv
    have e1 := other_keys "margin" (by simp)
    have hw : words (num ++ ['p', 'x']) = [num ++ ['p', 'x']] := by
      refine words_one _ (by simp) ?_
      intro c hc
      rcases List.mem_append.1 hc with hc | hc
      · rcases (number_chars num hn).2 c hc with rfl | rfl | rfl | hd
        · decide
        · decide
        · decide
        · exact (digit_ne c hd).2.2.2.2.2.2
      · clear e1; simp only [List.mem_cons, List.not_mem_nil, or_false] at hc; rcases hc with rfl | rfl <;> decide
    rw [no_var _ (unit_lower num _ hn (by decide)), e1.1, e1.2.1, e1.2.2.1, e1.2.2.2.1, e1.2.2.2.2]
    simp only [Bool.false_eq_true, if_false]
    rw [if_neg (by decide), if_pos trivial]
    simp [boxValues, hw, value_px x num hn]

/-! ## The attribute -/

omit [Num F] in
theorem sets_append (st : NodeStyle F) (k l : List (Property × Value F)) :
    st.sets (k ++ l) = (st.sets k).sets l := by
  simp [NodeStyle.sets]

theorem all_read (x : Ext F) (ps : List Part) (l : List (Property × Value F)) (h : AllMean x ps l) :
    (∀ p ∈ ps, p.Good) → ∀ st : NodeStyle F, declarations x st (ps.map Part.text) = some (st.sets l) := by
  induction h with
  | nil => intro _ st; rfl
  | @blank a ps l h ih =>
    intro hg st
    rw [List.map_cons, declarations, show (Part.blank a).text = a from rfl,
      declaration_blank x st a (hg (.blank a) (by simp))]
    exact ih (fun p hp => hg p (by simp [hp])) st
  | @decl a name b c value d ps k l hm h ih =>
    intro hg st
    rw [List.map_cons, declarations, declaration_decl x st a name b c value d (hg _ (by simp)),
      means_apply x st _ _ _ hm]
    rw [sets_append]
    exact ih (fun p hp => hg p (by simp [hp])) _

/-- **C124** A `style` attribute written as CSS allows (declarations separated by semicolons, with any
blanks around names and values, and with empty declarations) is read without a panic, and the style
of the element has for each property the last of the values that the declarations give it.

Partial: of the values of CSS, these are the lengths in `px`, `em` and `rem` of 41 properties,
hexadecimal colours of six properties, the styles of the sides of a border, `display` and `margin`
with one length. What other values become is in the theorems named `_violated`. -/
theorem C124_read_partial (x : Ext F) (ps : List Part) (l : List (Property × Value F))
    (hg : ∀ p ∈ ps, p.Good) (h : AllMean x ps l) :
    ∃ st, styleAttr x (attrText ps) = some st ∧ ∀ p : Property, st.get p = lastFor p l := by
  by_cases hn : ps = []
  · subst hn
    cases h
    exact ⟨[], rfl, fun p => rfl⟩
  · refine ⟨NodeStyle.sets [] l, ?_, ?_⟩
    · unfold styleAttr
      rw [split_attr ps hg hn]
      exact all_read x ps l h hg []
    · intro p
      rw [get_sets]
      simp [NodeStyle.get]

/-- The hypotheses are met: ` width : 12px;; color:#fff;width:-.5em`. -/
example (x : Ext F) :
    let ps : List Part := [.decl [' '] "width".toList [' '] [' '] "12px".toList [], .blank [],
      .decl [' '] "color".toList [] [] "#fff".toList [], .decl [] "width".toList [] [] "-.5em".toList []]
    attrText ps = " width : 12px;; color:#fff;width:-.5em".toList ∧ (∀ p ∈ ps, p.Good) ∧
    AllMean x ps [(.width, .unit (x.value "12".toList) .px), (.color, .color 255 255 255 255),
      (.width, .unit (x.value "-.5".toList) .em)] := by
  refine ⟨rfl, ?_, ?_⟩
  · intro p hp
    simp only [List.mem_cons, List.not_mem_nil, or_false] at hp
    rcases hp with rfl | rfl | rfl | rfl
    · exact ⟨by unfold Blank; decide, by unfold Blank; decide, by unfold Blank; decide, by unfold Blank; decide,
        ⟨by decide, by decide, by decide⟩, ⟨by decide, by decide, by decide⟩, by decide, by decide, by decide⟩
    · exact (by unfold Part.Good Blank; decide)
    · exact ⟨by unfold Blank; decide, by unfold Blank; decide, by unfold Blank; decide, by unfold Blank; decide,
        ⟨by decide, by decide, by decide⟩, ⟨by decide, by decide, by decide⟩, by decide, by decide, by decide⟩
    · exact ⟨by unfold Blank; decide, by unfold Blank; decide, by unfold Blank; decide, by unfold Blank; decide,
        ⟨by decide, by decide, by decide⟩, ⟨by decide, by decide, by decide⟩, by decide, by decide, by decide⟩
  · refine .decl (k := [_]) (Means.px (num := "12".toList) (by decide +kernel)
      (CssNumber.whole [] ['1', '2'] (.inl rfl) (by decide) (by decide))) (.blank ?_)
    refine .decl (k := [_]) (Means.hex3 (k := 15) (l := 15) (m := 15) (by decide +kernel)
      (Hex.small 5) (Hex.small 5) (Hex.small 5)) ?_
    exact .decl (k := [_]) (l := []) (Means.em (num := "-.5".toList) (by decide +kernel)
      (CssNumber.point ['-'] [] ['5'] (.inr (.inr rfl)) (by decide) (by decide) (by decide))) .nil

/-! ## The style of a node is a sorted map -/

omit [Num F] in
theorem set_sorted (st : NodeStyle F) (p : Property) (v : Value F)
    (h : st.Pairwise (fun a b => a.1 < b.1)) :
    (st.set p v).Pairwise (fun a b => a.1 < b.1) ∧
    ∀ e ∈ st.set p v, e.1 = p.id ∨ ∃ e' ∈ st, e'.1 = e.1 := by
  induction st with
  | nil => simp [NodeStyle.set]
  | cons e st ih =>
    obtain ⟨h1, h2⟩ := List.pairwise_cons.1 h
    unfold NodeStyle.set
    split
    · rename_i he
      refine ⟨List.pairwise_cons.2 ⟨fun b hb => he ▸ h1 b hb, h2⟩, ?_⟩
      intro b hb
      rcases List.mem_cons.1 hb with rfl | hb
      · exact .inl rfl
      · exact .inr ⟨b, by simp [hb], rfl⟩
    · rename_i hne
      split
      · rename_i hlt
        refine ⟨List.pairwise_cons.2 ⟨?_, h⟩, ?_⟩
        · intro b hb
          rcases List.mem_cons.1 hb with rfl | hb
          · exact hlt
          · exact Nat.lt_trans hlt (h1 b hb)
        · intro b hb
          rcases List.mem_cons.1 hb with rfl | hb
          · exact .inl rfl
          · exact .inr ⟨b, hb, rfl⟩
      · rename_i hnl
        obtain ⟨i1, i2⟩ := ih h2
        refine ⟨List.pairwise_cons.2 ⟨?_, i1⟩, ?_⟩
        · intro b hb
          rcases i2 b hb with hb | ⟨b', hb', he⟩
          · rw [hb]; omega
          · rw [← he]; exact h1 b' hb'
        · intro b hb
          rcases List.mem_cons.1 hb with rfl | hb
          · exact .inr ⟨b, by simp, rfl⟩
          · rcases i2 b hb with hb | ⟨b', hb', he⟩
            · exact .inl hb
            · exact .inr ⟨b', by simp [hb'], he⟩

omit [Num F] in
theorem sets_sorted (st : NodeStyle F) (l : List (Property × Value F))
    (h : st.Pairwise (fun a b => a.1 < b.1)) : (st.sets l).Pairwise (fun a b => a.1 < b.1) := by
  induction l generalizing st with
  | nil => exact h
  | cons e l ih => exact ih _ (set_sorted st e.1 e.2 h).1

theorem apply_sorted (x : Ext F) (st st' : NodeStyle F) (k : String) (s : List Char)
    (h : st.Pairwise (fun a b => a.1 < b.1)) (he : applyKv x st k s = some st') :
    st'.Pairwise (fun a b => a.1 < b.1) := by
  have h0 := fun p v => (set_sorted st p v h).1
  unfold applyKv at he
  split at he
  · cases he; exact h
  split at he
  · cases he; exact h0 _ _
  split at he
  · obtain ⟨v, -, rfl⟩ := Option.map_eq_some_iff.1 he; exact h0 _ _
  split at he
  · cases he; exact h0 _ _
  split at he
  · cases he; exact h0 _ _
  split at he
  · cases he; exact h0 _ _
  split at he
  · cases he; exact h0 _ _
  split at he
  · cases he; exact sets_sorted _ _ h
  split at he
  · cases he; exact sets_sorted _ _ h
  split at he
  · cases he; exact sets_sorted _ _ h
  split at he
  · obtain ⟨v, -, rfl⟩ := Option.map_eq_some_iff.1 he; exact sets_sorted _ _ h
  split at he
  · obtain ⟨v, -, rfl⟩ := Option.map_eq_some_iff.1 he
    cases v with
    | none =>
      simp only
      split
      · exact h0 _ _
      · exact h
    | some v =>
      simp only
      split
      · exact (set_sorted _ _ _ (h0 _ _)).1
      · exact h0 _ _
  split at he
  · cases he
    split
    · exact h0 _ _
    · exact h
  · cases he; exact h

theorem declarations_sorted (x : Ext F) (ds : List (List Char)) (st st' : NodeStyle F)
    (h : st.Pairwise (fun a b => a.1 < b.1)) (he : declarations x st ds = some st') :
    st'.Pairwise (fun a b => a.1 < b.1) := by
  induction ds generalizing st with
  | nil => cases he; exact h
  | cons d ds ih =>
    rw [declarations] at he
    obtain ⟨s1, h1, h2⟩ := Option.bind_eq_some_iff.1 he
    refine ih s1 ?_ h2
    unfold declaration at h1
    simp only at h1
    split at h1
    · cases h1; exact h
    · split at h1
      · exact apply_sorted x st s1 _ _ h h1
      · cases h1; exact h

/-- **C124** Whatever the text of the attribute, the style that is made holds each property at most
once, in the order of the numbers of the properties. The lookup (`get_own`), which is a binary search
by that number, therefore finds a value exactly if there is one. -/
theorem C124_sorted (x : Ext F) (s : List Char) (st : NodeStyle F) (h : styleAttr x s = some st) :
    st.Pairwise (fun a b => a.1 < b.1) :=
  declarations_sorted x _ [] st .nil h

example (x : Ext F) : styleAttr x "width:1px;color:#fff".toList =
    some [(Property.color.id, .color 255 255 255 255), (Property.width.id, .unit (x.value ['1']) .px)] := rfl

/-! ## Panics -/

theorem ascii_size (c : Char) (h : c.toNat < 128) : c.utf8Size = 1 := by
  unfold Char.utf8Size
  have : c.val ≤ UInt32.ofNatLT 0x7F (by decide) := by
    rw [UInt32.le_iff_toNat_le]
    have : c.val.toNat < 128 := h
    show c.val.toNat ≤ 127
    omega
  exact if_pos this

theorem ascii_bytes (s : List Char) (h : Ascii s) : bytes s = s.length := by
  induction s with
  | nil => rfl
  | cons c s ih =>
    have := ih (fun d hd => h d (by simp [hd]))
    simp only [bytes, List.map_cons, List.sum_cons, List.length_cons] at this ⊢
    rw [this, ascii_size c (h c (by simp))]; omega

theorem ascii_cut (k : Nat) (s : List Char) (h : Ascii s) (hk : k ≤ s.length) :
    ∃ p, cutAt k s = some p ∧ Ascii p.2 ∧ p.2.length = s.length - k := by
  induction k generalizing s with
  | zero => exact ⟨([], s), by simp [cutAt], h, rfl⟩
  | succ k ih =>
    cases s with
    | nil => simp at hk
    | cons c s =>
      have hs : Ascii s := fun d hd => h d (by simp [hd])
      obtain ⟨p, hp, h1, h2⟩ := ih s hs (by simpa using hk)
      refine ⟨(c :: p.1, p.2), ?_, h1, by simpa using h2⟩
      have : k + 1 - 1 = k := by omega
      rw [cutAt, ascii_size c (h c (by simp)), if_pos (by omega), this, hp]; rfl

theorem ascii_cuts (ks : List Nat) (s : List Char) (h : Ascii s) (hk : ks.sum ≤ s.length) :
    cuts ks s ≠ none := by
  induction ks generalizing s with
  | nil => simp [cuts]
  | cons k ks ih =>
    simp only [List.sum_cons] at hk
    obtain ⟨p, hp, h1, h2⟩ := ascii_cut k s h (by omega)
    have := ih p.2 h1 (by omega)
    rw [cuts, hp]
    cases hc : cuts ks p.2 with
    | none => exact absurd hc this
    | some l => simp [hc]

omit [Num F] in
theorem ascii_hexColor (s : List Char) (h : Ascii s) : (hexColor s : Option (Value F)) ≠ none := by
  have hd : Ascii (dropHashes s) := fun c hc => h c (List.dropWhile_subset _ hc)
  have hb := ascii_bytes _ hd
  unfold hexColor
  simp only
  split
  · have := ascii_cuts [2, 2, 2] _ hd (by simp; omega)
    simpa using this
  · split
    · have := ascii_cuts [2, 2, 2, 2] _ hd (by simp; omega)
      simpa using this
    · split
      · have := ascii_cuts [1, 1, 1] _ hd (by simp; omega)
        simpa using this
      · simp

omit [Num F] in
theorem ascii_colorValue (x : Ext F) (hx : ∀ n hex, x.named n = some hex → Ascii hex) (s : List Char)
    (h : Ascii s) : colorValue x s ≠ none := by
  unfold colorValue
  split
  · simp
  split
  · simp
  split
  · simp
  split
  · exact ascii_hexColor s h
  split
  · rename_i hex he; exact ascii_hexColor hex (hx _ _ he)
  · simp

theorem words_chars (s : List Char) : ∀ w ∈ words s, ∀ c ∈ w, c ∈ s := by
  induction s with
  | nil => intro w hw; cases hw
  | cons y ys ih =>
    intro w hw c hc
    unfold words at hw
    split at hw
    · exact List.mem_cons_of_mem _ (ih w hw c hc)
    · split at hw
      · simp only [List.mem_singleton] at hw; subst hw; simpa using hc
      · split at hw
        · rcases List.mem_cons.1 hw with rfl | hw
          · simp only [List.mem_singleton] at hc; simp [hc]
          · exact List.mem_cons_of_mem _ (ih w hw c hc)
        · split at hw
          · simp only [List.mem_singleton] at hw; subst hw
            simp only [List.mem_singleton] at hc; simp [hc]
          · rename_i he
            rw [he] at ih
            rcases List.mem_cons.1 hw with rfl | hw
            · rcases List.mem_cons.1 hc with rfl | hc
              · simp
              · exact List.mem_cons_of_mem _ (ih _ (by simp) c hc)
            · exact List.mem_cons_of_mem _ (ih w (by simp [hw]) c hc)

theorem ascii_border (x : Ext F) (hx : ∀ n hex, x.named n = some hex → Ascii hex)
    (l : List (List Char)) (h : ∀ w ∈ l, Ascii w) (acc : Value F × Value F × Value F) :
    borderParts x l acc ≠ none := by
  induction l generalizing acc with
  | nil => simp [borderParts]
  | cons w l ih =>
    have ih := ih (fun w hw => h w (by simp [hw]))
    obtain ⟨a, b, c⟩ := acc
    unfold borderParts
    split
    · exact ih _
    · split
      · exact ih _
      · cases hc : colorValue x w with
        | none => exact absurd hc (ascii_colorValue x hx w (h w (by simp)))
        | some v => exact ih _

omit [Num F] in
theorem ascii_background (x : Ext F) (hx : ∀ n hex, x.named n = some hex → Ascii hex)
    (l : List (List Char)) (h : ∀ w ∈ l, Ascii w) : backgroundColor x l ≠ none := by
  induction l with
  | nil => simp [backgroundColor]
  | cons w l ih =>
    have ih := ih (fun w hw => h w (by simp [hw]))
    unfold backgroundColor
    cases hc : colorValue x w with
    | none => exact absurd hc (ascii_colorValue x hx w (h w (by simp)))
    | some v =>
      simp only [Option.bind_some]
      split
      · simp
      · exact ih

theorem ascii_apply (x : Ext F) (hx : ∀ n hex, x.named n = some hex → Ascii hex) (st : NodeStyle F)
    (k : String) (s : List Char) (h : Ascii s) : applyKv x st k s ≠ none := by
  have hc := ascii_colorValue x hx s h
  have hb := ascii_border x hx (words s) (fun w hw c hc => h c (words_chars s w hw c hc))
  have hg := ascii_background x hx (words s) (fun w hw c hc => h c (words_chars s w hw c hc))
  unfold applyKv
  split
  · simp
  split
  · simp
  split
  · simpa using hc
  split
  · simp
  split
  · simp
  split
  · simp
  split
  · simp
  split
  · simp
  split
  · simp
  split
  · simp
  split
  · simpa using hb _
  split
  · simpa using hg
  split
  · simp
  · simp

theorem trim_chars (s : List Char) : ∀ c ∈ trim s, c ∈ s := by
  intro c hc
  unfold trim at hc
  have h1 := List.dropWhile_subset ws (List.mem_reverse.1 hc)
  exact List.dropWhile_subset ws (List.mem_reverse.1 h1)

theorem splitOnce_chars (q : Char) (s : List Char) (p : List Char × List Char)
    (h : splitOnce q s = some p) : ∀ c ∈ p.2, c ∈ s := by
  induction s generalizing p with
  | nil => cases h
  | cons y ys ih =>
    unfold splitOnce at h
    split at h
    · cases h; exact fun c hc => List.mem_cons_of_mem _ hc
    · obtain ⟨r, hr, rfl⟩ := Option.map_eq_some_iff.1 h
      exact fun c hc => List.mem_cons_of_mem _ (ih r hr c hc)

theorem splitAll_chars (q : Char) (s : List Char) : ∀ w ∈ splitAll q s, ∀ c ∈ w, c ∈ s := by
  induction s with
  | nil => intro w hw c hc; simp [splitAll] at hw; subst hw; cases hc
  | cons y ys ih =>
    intro w hw c hc
    unfold splitAll at hw
    split at hw
    · rcases List.mem_cons.1 hw with rfl | hw
      · cases hc
      · exact List.mem_cons_of_mem _ (ih w hw c hc)
    · split at hw
      · simp only [List.mem_singleton] at hw; subst hw
        simp only [List.mem_singleton] at hc; simp [hc]
      · rename_i he
        rw [he] at ih
        rcases List.mem_cons.1 hw with rfl | hw
        · rcases List.mem_cons.1 hc with rfl | hc
          · simp
          · exact List.mem_cons_of_mem _ (ih _ (by simp) c hc)
        · exact List.mem_cons_of_mem _ (ih w (by simp [hw]) c hc)

theorem ascii_declarations (x : Ext F) (hx : ∀ n hex, x.named n = some hex → Ascii hex)
    (l : List (List Char)) (h : ∀ w ∈ l, Ascii w) (st : NodeStyle F) : declarations x st l ≠ none := by
  induction l generalizing st with
  | nil => simp [declarations]
  | cons d l ih =>
    have ih := ih (fun w hw => h w (by simp [hw]))
    have hd : declaration x st d ≠ none := by
      unfold declaration
      simp only
      split
      · simp
      · split
        · rename_i k v he
          refine ascii_apply x hx st _ _ ?_
          intro c hc
          exact h d (by simp) c (trim_chars d c (splitOnce_chars _ _ _ he c (trim_chars v c hc)))
        · simp
    rw [declarations]
    cases hc : declaration x st d with
    | none => exact absurd hc hd
    | some st' => exact ih st'

/-- **C124** A `style` attribute of ASCII characters, whatever it holds, does not make the engine
panic. Partial: with other characters it can, see `C124_hex_panic_violated`. The hypothesis on the
table of named colours is met by the table of the engine, whose values are hexadecimal. -/
theorem C124_no_panic_partial (x : Ext F) (hx : ∀ n hex, x.named n = some hex → Ascii hex)
    (s : List Char) (h : Ascii s) : styleAttr x s ≠ none :=
  ascii_declarations x hx _ (fun w hw c hc => h c (splitAll_chars ';' s w hw c hc)) []

example : Ascii "color:#12;border:;;:x".toList ∧
    ∀ n hex, (fun n : List Char => if n = "red".toList then some "#ff0000".toList else none) n = some hex →
      Ascii hex := by
  refine ⟨by unfold Ascii; decide, ?_⟩
  intro n hex h
  simp only at h
  split at h
  · cases h; unfold Ascii; decide
  · cases h

/-- **C124 is violated**: a page whose `style` attribute holds `color:#é1` (a colour of three bytes,
cut inside the character) makes the engine panic. So do a border and a background. -/
theorem C124_hex_panic_violated (x : Ext F) :
    styleAttr x "color:#é1".toList = none ∧ styleAttr x "border:1px solid #aéaaa".toList = none ∧
    styleAttr x "background:#1é".toList = none := ⟨rfl, rfl, rfl⟩

/-! ## Values that do not become what CSS says -/

/-- **C124 is violated**: a percentage, a length in another unit and a length with `!important` are
kept as a word instead of a length. -/
theorem C124_units_violated (x : Ext F) :
    styleAttr x "width:50%".toList = some [(Property.width.id, .keyword "50%")] ∧
    styleAttr x "width:10vw".toList = some [(Property.width.id, .keyword "10vw")] ∧
    styleAttr x "width:1in".toList = some [(Property.width.id, .keyword "1in")] ∧
    styleAttr x "width:5px !important".toList = some [(Property.width.id, .keyword "5px !important")] :=
  ⟨rfl, rfl, rfl, rfl⟩

/-- **C124 is violated**: texts that are no CSS value, which CSS ignores, become lengths and
colours. -/
theorem C124_accepted_violated (x : Ext F) :
    styleAttr x "width:12".toList = some [(Property.width.id, .unit (x.value "12".toList) .px)] ∧
    styleAttr x "width:1px2".toList = some [(Property.width.id, .unit (x.value "12".toList) .px)] ∧
    styleAttr x "width:nan".toList = some [(Property.width.id, .unit (x.value "nan".toList) .px)] ∧
    styleAttr x "width:inf".toList = some [(Property.width.id, .unit (x.value "inf".toList) .px)] ∧
    styleAttr x "color:#+1+2+3".toList = some [(Property.color.id, .color 1 2 3 255)] ∧
    styleAttr x "color:##fff".toList = some [(Property.color.id, .color 255 255 255 255)] :=
  ⟨rfl, rfl, rfl, rfl, rfl, rfl⟩

/-- **C124 is violated**: a word that is no value of the property replaces a valid earlier
declaration, which CSS keeps. -/
theorem C124_invalid_replaces_violated (x : Ext F) :
    styleAttr x "width:5px;width:abc".toList = some [(Property.width.id, .keyword "abc")] ∧
    styleAttr x "border-top-style:solid;border-top-style:x".toList =
      some [(Property.borderTopStyle.id, .borderStyle .none)] := ⟨rfl, rfl⟩

/-- **C124 is violated**: a colour with four hexadecimal digits is kept as a word, and a component
above 255 or with a fraction counts as 0 instead of 255 or its value. -/
theorem C124_colors_violated (x : Ext F) :
    styleAttr x "color:#f00f".toList = some [(Property.color.id, .keyword "#f00f")] ∧
    styleAttr x "color:rgb(300,0,0)".toList = some [(Property.color.id, .color 0 0 0 255)] ∧
    styleAttr x "color:rgb(100%,0%,0%)".toList = some [(Property.color.id, .color 0 0 0 255)] ∧
    styleAttr x "color:rgb(1 2 3)".toList = some [(Property.color.id, .keyword "rgb(1 2 3)")] :=
  ⟨rfl, rfl, rfl, rfl⟩

/-- **C124 is violated**: names in capital letters are ignored, a semicolon within a `url()` or a
string ends the declaration, and a comment hides the name it is next to. -/
theorem C124_syntax_violated (x : Ext F) :
    styleAttr x "WIDTH:5px".toList = some [] ∧
    styleAttr x "background-image:url(data:image/png;base64,AA)".toList = some [] ∧
    styleAttr x "/* a */width:5px".toList = some [] := ⟨rfl, rfl, rfl⟩

end Verif.Style
