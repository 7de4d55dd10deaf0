import Verif.Style.InlineSpec

/-! # The `style` attribute: lemmas -/

namespace Verif.Style

/-! ## Splitting and trimming -/

theorem splitAll_ne (c : Char) (s : List Char) : splitAll c s ≠ [] := by
  cases s with
  | nil => simp [splitAll]
  | cons x xs =>
    unfold splitAll
    split
    · simp
    · split <;> simp

theorem splitAll_none (c : Char) (s : List Char) (h : c ∉ s) : splitAll c s = [s] := by
  induction s with
  | nil => rfl
  | cons x xs ih =>
    simp only [List.mem_cons, not_or] at h
    rw [splitAll, if_neg (fun e => h.1 e.symm), ih h.2]

theorem splitAll_cons (c : Char) (s t : List Char) (h : c ∉ s) :
    splitAll c (s ++ c :: t) = s :: splitAll c t := by
  induction s with
  | nil => simp [splitAll]
  | cons x xs ih =>
    simp only [List.mem_cons, not_or] at h
    rw [List.cons_append, splitAll, if_neg (fun e => h.1 e.symm), ih h.2]

theorem dropWhile_blank (a s : List Char) (ha : ∀ c ∈ a, ws c = true) (hs : s = [] ∨ ∃ x xs, s = x :: xs ∧ ws x = false) :
    (a ++ s).dropWhile ws = s := by
  induction a with
  | nil =>
    rcases hs with rfl | ⟨x, xs, rfl, hx⟩
    · rfl
    · simp [List.dropWhile, hx]
  | cons y ys ih =>
    have := ha y (by simp)
    simp only [List.cons_append, List.dropWhile, this]
    exact ih (fun c hc => ha c (by simp [hc]))

theorem neat_head {s : List Char} (h : Neat s) : ∃ x xs, s = x :: xs ∧ ws x = false := by
  obtain ⟨hn, h1, _⟩ := h
  cases s with
  | nil => exact absurd rfl hn
  | cons x xs => exact ⟨x, xs, rfl, h1⟩

theorem neat_last {s : List Char} (h : Neat s) : ∃ x xs, s.reverse = x :: xs ∧ ws x = false := by
  obtain ⟨hn, _, h2⟩ := h
  refine ⟨s.getLast hn, s.dropLast.reverse, ?_, h2⟩
  conv => lhs; rw [← List.dropLast_concat_getLast hn]
  simp

theorem trim_blank (a : List Char) (ha : ∀ c ∈ a, ws c = true) : trim a = [] := by
  have : a.dropWhile ws = [] := by
    have := dropWhile_blank a [] ha (.inl rfl)
    simpa using this
  simp [trim, this]

theorem trim_eq (a s b : List Char) (ha : ∀ c ∈ a, ws c = true) (hb : ∀ c ∈ b, ws c = true)
    (h1 : ∃ x xs, s = x :: xs ∧ ws x = false) (h2 : ∃ x xs, s.reverse = x :: xs ∧ ws x = false) :
    trim (a ++ s ++ b) = s := by
  unfold trim
  rw [List.append_assoc, dropWhile_blank a (s ++ b) ha (by
    obtain ⟨x, xs, rfl, hx⟩ := h1
    exact .inr ⟨x, xs ++ b, rfl, hx⟩)]
  rw [List.reverse_append, dropWhile_blank b.reverse s.reverse (fun c hc => hb c (by simpa using hc))
    (.inr h2)]
  simp

theorem splitOnce_cons (c : Char) (s t : List Char) (h : c ∉ s) :
    splitOnce c (s ++ c :: t) = some (s, t) := by
  induction s with
  | nil => simp [splitOnce]
  | cons x xs ih =>
    simp only [List.mem_cons, not_or] at h
    rw [List.cons_append, splitOnce, if_neg (fun e => h.1 e.symm), ih h.2]; rfl

theorem part_no_semicolon (p : Part) (h : p.Good) : ';' ∉ p.text := by
  cases p with
  | blank a => exact fun hm => (h _ hm).2.1 rfl
  | decl a name b c value d =>
    obtain ⟨ha, hb, hc, hd, _, _, h1, _, h3⟩ := h
    simp only [Part.text, List.mem_append, List.mem_singleton, not_or]
    refine ⟨⟨⟨⟨⟨⟨?_, h1⟩, ?_⟩, by decide⟩, ?_⟩, h3⟩, ?_⟩
    · exact fun hm => (ha _ hm).2.1 rfl
    · exact fun hm => (hb _ hm).2.1 rfl
    · exact fun hm => (hc _ hm).2.1 rfl
    · exact fun hm => (hd _ hm).2.1 rfl

theorem split_attr (ps : List Part) (h : ∀ p ∈ ps, p.Good) (hn : ps ≠ []) :
    splitAll ';' (attrText ps) = ps.map Part.text := by
  induction ps with
  | nil => exact absurd rfl hn
  | cons p ps ih =>
    cases ps with
    | nil => exact splitAll_none _ _ (part_no_semicolon p (h p (by simp)))
    | cons q qs =>
      rw [attrText, splitAll_cons _ _ _ (part_no_semicolon p (h p (by simp)))]
      · rw [ih (fun r hr => h r (List.mem_cons_of_mem _ hr)) (by simp)]; rfl
      · simp

variable {F : Type} [Num F]

theorem declaration_blank (x : Ext F) (st : NodeStyle F) (a : List Char) (h : Blank a) :
    declaration x st a = some st := by
  unfold declaration
  rw [trim_blank a (fun c hc => (h c hc).1)]
  rfl

theorem declaration_decl (x : Ext F) (st : NodeStyle F) (a name b c value d : List Char)
    (h : (Part.decl a name b c value d).Good) :
    declaration x st (Part.decl a name b c value d).text =
      applyKv x st (String.ofList name) value := by
  obtain ⟨ha, hb, hc, hd, hn, hv, h1, h2, h3⟩ := h
  have ht : trim (Part.decl a name b c value d).text = name ++ b ++ [':'] ++ c ++ value := by
    have : (Part.decl a name b c value d).text = a ++ (name ++ b ++ [':'] ++ c ++ value) ++ d := by
      simp [Part.text]
    rw [this]
    refine trim_eq _ _ _ (fun y hy => (ha y hy).1) (fun y hy => (hd y hy).1) ?_ ?_
    · obtain ⟨y, ys, rfl, hy⟩ := neat_head hn
      exact ⟨y, ys ++ b ++ [':'] ++ c ++ value, by simp, hy⟩
    · obtain ⟨y, ys, he, hy⟩ := neat_last hv
      refine ⟨y, ys ++ (name ++ b ++ [':'] ++ c).reverse, ?_, hy⟩
      rw [List.reverse_append, he]; rfl
  unfold declaration
  rw [ht]
  have hne : (name ++ b ++ [':'] ++ c ++ value).isEmpty = false := by
    obtain ⟨y, ys, rfl, hy⟩ := neat_head hn
    rfl
  simp only [hne, Bool.false_eq_true, if_false]
  have hso : splitOnce ':' (name ++ b ++ [':'] ++ c ++ value) = some (name ++ b, c ++ value) := by
    have : name ++ b ++ [':'] ++ c ++ value = (name ++ b) ++ ':' :: (c ++ value) := by simp
    rw [this]
    refine splitOnce_cons _ _ _ ?_
    simp only [List.mem_append, not_or]
    exact ⟨h2, fun hm => (hb _ hm).2.2 rfl⟩
  rw [hso]
  simp only
  have e1 : trim (name ++ b) = name := by
    have := trim_eq [] name b (by simp) (fun y hy => (hb y hy).1) (neat_head hn) (neat_last hn)
    simpa using this
  have e2 : trim (c ++ value) = value := by
    have := trim_eq c value [] (fun y hy => (hc y hy).1) (by simp) (neat_head hv) (neat_last hv)
    simpa using this
  rw [e1, e2]

/-! ## Numbers -/

theorem remove_absent (q : Char) (pat s : List Char) (h : q ∉ s) : remove (q :: pat) 0 s = s := by
  induction s with
  | nil => rfl
  | cons x xs ih =>
    simp only [List.mem_cons, not_or] at h
    have : (q :: pat).isPrefixOf (x :: xs) = false := by
      simp [List.isPrefixOf, h.1]
    rw [remove, this, ih h.2]; rfl

theorem remove_skip (pat s : List Char) : remove pat s.length s = [] := by
  induction s with
  | nil => rfl
  | cons x xs ih => exact ih

theorem remove_suffix (q : Char) (pat num : List Char) (h : q ∉ num) :
    remove (q :: pat) 0 (num ++ q :: pat) = num := by
  induction num with
  | nil =>
    show remove (q :: pat) 0 (q :: pat) = []
    rw [remove, if_pos (by simp)]
    exact remove_skip _ _
  | cons x xs ih =>
    simp only [List.mem_cons, not_or] at h
    have : (q :: pat).isPrefixOf (x :: (xs ++ q :: pat)) = false := by
      simp [List.isPrefixOf, h.1]
    rw [List.cons_append, remove, this, ih h.2]; rfl

/-- A character that no number has. -/
theorem isExp_chars (s : List Char) (h : isExp s = true) (c : Char) (hc : c ∈ s) :
    c = 'e' ∨ c = 'E' ∨ c = '+' ∨ c = '-' ∨ isDigit c = true := by
  cases s with
  | nil => cases hc
  | cons y ys =>
    unfold isExp at h
    simp only [Bool.and_eq_true, Bool.or_eq_true, beq_iff_eq] at h
    obtain ⟨hy, hr⟩ := h
    rcases List.mem_cons.1 hc with rfl | hc
    · rcases hy with h | h
      · exact .inl h
      · exact .inr (.inl h)
    · revert hr
      split
      · intro hr
        simp only [Bool.and_eq_true, List.all_eq_true] at hr
        rcases List.mem_cons.1 hc with rfl | hc
        · simp
        · exact .inr (.inr (.inr (.inr (hr.2 c hc))))
      · intro hr
        simp only [Bool.and_eq_true, List.all_eq_true] at hr
        rcases List.mem_cons.1 hc with rfl | hc
        · simp
        · exact .inr (.inr (.inr (.inr (hr.2 c hc))))
      · intro hr
        simp only [Bool.and_eq_true, List.all_eq_true] at hr
        exact .inr (.inr (.inr (.inr (hr.2 c hc))))

theorem split_digits (s : List Char) (c : Char) (hc : c ∈ s) :
    isDigit c = true ∨ c ∈ s.dropWhile isDigit := by
  induction s with
  | nil => cases hc
  | cons y ys ih =>
    rcases List.mem_cons.1 hc with rfl | hc
    · cases h : isDigit c with
      | true => exact .inl rfl
      | false => right; simp [List.dropWhile, h]
    · rcases ih hc with h | h
      · exact .inl h
      · cases hy : isDigit y with
        | true => right; simpa [List.dropWhile, hy] using h
        | false => right; simp [List.dropWhile, hy, hc]

theorem lower_m : lower 'm' = 'm' := by decide

theorem unsigned_no_m (s : List Char) (h : isUnsigned s = true) : 'm' ∉ s := by
  intro hm
  unfold isUnsigned at h
  simp only [Bool.or_eq_true, beq_iff_eq] at h
  have hword : ∀ w : List Char, 'm' ∉ w → s.map lower ≠ w := by
    intro w hw he
    exact hw (he ▸ (List.mem_map.2 ⟨'m', hm, lower_m⟩))
  rcases h with ((h | h) | h) | h
  · have hr : 'm' ∈ s.dropWhile isDigit := by
      rcases split_digits s 'm' hm with h | h
      · exact absurd h (by decide)
      · exact h
    revert h
    split
    · rename_i more he
      intro h
      rw [he] at hr
      simp only [Bool.and_eq_true] at h
      rcases List.mem_cons.1 hr with h' | h'
      · exact absurd h' (by decide)
      · rcases split_digits more 'm' h' with h'' | h''
        · exact absurd h'' (by decide)
        · have := isExp_chars _ h.2 _ h''
          exact absurd this (by decide)
    · intro h
      simp only [Bool.and_eq_true] at h
      have := isExp_chars _ h.2 _ hr
      exact absurd this (by decide)
  · exact hword _ (by decide) h
  · exact hword _ (by decide) h
  · exact hword _ (by decide) h

theorem float_no_m (s : List Char) (h : isFloat s = true) : 'm' ∉ s := by
  unfold isFloat at h
  split at h
  · intro hm
    rcases List.mem_cons.1 hm with h' | h'
    · exact absurd h' (by decide)
    · exact unsigned_no_m _ h h'
  · intro hm
    rcases List.mem_cons.1 hm with h' | h'
    · exact absurd h' (by decide)
    · exact unsigned_no_m _ h h'
  · exact unsigned_no_m _ h

theorem digit_of (c : Char) (h : '0' ≤ c ∧ c ≤ '9') : isDigit c = true := by
  obtain ⟨h1, h2⟩ := h
  have h1 : (48 : UInt32) ≤ c.val := h1
  have h2 : c.val ≤ (57 : UInt32) := h2
  rw [UInt32.le_iff_toNat_le] at h1 h2
  simp only [isDigit, Bool.and_eq_true, decide_eq_true_eq]
  exact ⟨h1, h2⟩

theorem takeWhile_digits (ds r : List Char) (h : ∀ c ∈ ds, isDigit c = true)
    (hr : r = [] ∨ ∃ y ys, r = y :: ys ∧ isDigit y = false) :
    (ds ++ r).takeWhile isDigit = ds ∧ (ds ++ r).dropWhile isDigit = r := by
  induction ds with
  | nil =>
    rcases hr with rfl | ⟨y, ys, rfl, hy⟩
    · simp
    · simp [List.takeWhile, List.dropWhile, hy]
  | cons d ds ih =>
    have := h d (by simp)
    have ih := ih (fun c hc => h c (by simp [hc]))
    simp only [List.cons_append, List.takeWhile, List.dropWhile, this]
    exact ⟨by rw [ih.1], ih.2⟩

theorem unsigned_whole (ds : List Char) (hn : ds ≠ []) (h : ∀ c ∈ ds, isDigit c = true) :
    isUnsigned ds = true := by
  have := takeWhile_digits ds [] h (.inl rfl)
  simp only [List.append_nil] at this
  unfold isUnsigned
  rw [this.1, this.2]
  cases ds with
  | nil => exact absurd rfl hn
  | cons d ds => simp [isExp]

theorem unsigned_point (ds es : List Char) (hn : es ≠ []) (h : ∀ c ∈ ds, isDigit c = true)
    (h' : ∀ c ∈ es, isDigit c = true) : isUnsigned (ds ++ '.' :: es) = true := by
  have := takeWhile_digits ds ('.' :: es) h (.inr ⟨'.', es, rfl, by decide⟩)
  have h2 := takeWhile_digits es [] h' (.inl rfl)
  simp only [List.append_nil] at h2
  unfold isUnsigned
  rw [this.1, this.2]
  simp only [h2.1, h2.2]
  cases es with
  | nil => exact absurd rfl hn
  | cons d ds => simp [isExp]

theorem float_signed (sign s : List Char) (hs : sign = [] ∨ sign = ['+'] ∨ sign = ['-'])
    (hd : ∃ y ys, s = y :: ys ∧ y ≠ '+' ∧ y ≠ '-') (h : isUnsigned s = true) :
    isFloat (sign ++ s) = true := by
  rcases hs with rfl | rfl | rfl
  · obtain ⟨y, ys, rfl, h1, h2⟩ := hd
    simp only [List.nil_append]
    unfold isFloat
    split
    · rename_i he; cases he; exact absurd rfl h1
    · rename_i he; cases he; exact absurd rfl h2
    · exact h
  · exact h
  · exact h

theorem digit_ne (c : Char) (h : isDigit c = true) : c ≠ '+' ∧ c ≠ '-' ∧ c ≠ 'p' ∧ c ≠ 'r' ∧ c ≠ 'e' ∧
    c ≠ '_' ∧ ws c = false := by
  refine ⟨?_, ?_, ?_, ?_, ?_, ?_, ?_⟩
  iterate 6 (rintro rfl; exact absurd h (by decide))
  simp only [isDigit, Bool.and_eq_true, decide_eq_true_eq] at h
  simp only [ws, Bool.or_eq_false_iff, Bool.and_eq_false_iff, decide_eq_false_iff_not, beq_eq_false_iff_ne]
  omega

theorem number_chars (s : List Char) (h : CssNumber s) :
    isFloat s = true ∧ ∀ c ∈ s, c = '+' ∨ c = '-' ∨ c = '.' ∨ isDigit c = true := by
  have hsign : ∀ sign : List Char, sign = [] ∨ sign = ['+'] ∨ sign = ['-'] → ∀ c ∈ sign, c = '+' ∨ c = '-' := by
    rintro sign (rfl | rfl | rfl) c hc <;> simp_all
  cases h with
  | whole sign ds hs hd h =>
    have h := fun c hc => digit_of c (h c hc)
    refine ⟨float_signed sign ds hs ?_ (unsigned_whole ds hd h), ?_⟩
    · cases ds with
      | nil => exact absurd rfl hd
      | cons d ds => exact ⟨d, ds, rfl, (digit_ne d (h d (by simp))).1, (digit_ne d (h d (by simp))).2.1⟩
    · intro c hc
      rcases List.mem_append.1 hc with hc | hc
      · rcases hsign sign hs c hc with h | h <;> simp [h]
      · simp [h c hc]
  | point sign ds es hs he h h' =>
    have h := fun c hc => digit_of c (h c hc)
    have h' := fun c hc => digit_of c (h' c hc)
    refine ⟨?_, ?_⟩
    · rw [List.append_assoc]
      refine float_signed sign (ds ++ '.' :: es) hs ?_ (unsigned_point ds es he h h')
      cases ds with
      | nil => exact ⟨'.', es, rfl, by decide, by decide⟩
      | cons d ds => exact ⟨d, ds ++ '.' :: es, rfl, (digit_ne d (h d (by simp))).1, (digit_ne d (h d (by simp))).2.1⟩
    · intro c hc
      rcases List.mem_append.1 hc with hc | hc
      · rcases List.mem_append.1 hc with hc | hc
        · rcases hsign sign hs c hc with h | h <;> simp [h]
        · simp [h c hc]
      · rcases List.mem_cons.1 hc with rfl | hc
        · simp
        · simp [h' c hc]

theorem number_absent (s : List Char) (h : CssNumber s) (q : Char) (h1 : q ≠ '+') (h2 : q ≠ '-')
    (h3 : q ≠ '.') (h4 : isDigit q = false) : q ∉ s := by
  intro hq
  rcases (number_chars s h).2 q hq with h | h | h | h
  · exact h1 h
  · exact h2 h
  · exact h3 h
  · rw [h4] at h; cases h

theorem not_float_m (s : List Char) (h : 'm' ∈ s) : isFloat s = false := by
  cases hf : isFloat s with
  | false => rfl
  | true => exact absurd h (float_no_m s hf)

omit [Num F] in
theorem value_px (x : Ext F) (num : List Char) (h : CssNumber num) :
    styleValue x (num ++ ['p', 'x']) = .unit (x.value num) .px := by
  have hp : 'p' ∉ num := number_absent num h 'p' (by decide) (by decide) (by decide) (by decide)
  have e : remove "px".toList 0 (num ++ ['p', 'x']) = num := remove_suffix 'p' ['x'] num hp
  unfold styleValue
  rw [e]
  simp [float, (number_chars num h).1]

omit [Num F] in
theorem value_em (x : Ext F) (num : List Char) (h : CssNumber num) :
    styleValue x (num ++ ['e', 'm']) = .unit (x.value num) .em := by
  have ha := fun q h1 h2 h3 h4 => number_absent num h q h1 h2 h3 h4
  have hp : 'p' ∉ num ++ ['e', 'm'] := by simp [ha 'p' (by decide) (by decide) (by decide) (by decide)]
  have hq : '_' ∉ num ++ ['e', 'm'] := by simp [ha '_' (by decide) (by decide) (by decide) (by decide)]
  have hr : 'r' ∉ num ++ ['e', 'm'] := by simp [ha 'r' (by decide) (by decide) (by decide) (by decide)]
  have he : 'e' ∉ num := ha 'e' (by decide) (by decide) (by decide) (by decide)
  have hf : isFloat (num ++ ['e', 'm']) = false := not_float_m _ (by simp)
  have e1 : remove "px".toList 0 (num ++ ['e', 'm']) = num ++ ['e', 'm'] := remove_absent 'p' ['x'] _ hp
  have e2 : remove "__qem".toList 0 (num ++ ['e', 'm']) = num ++ ['e', 'm'] :=
    remove_absent '_' ['_', 'q', 'e', 'm'] _ hq
  have e3 : remove "rem".toList 0 (num ++ ['e', 'm']) = num ++ ['e', 'm'] :=
    remove_absent 'r' ['e', 'm'] _ hr
  have e4 : remove "em".toList 0 (num ++ ['e', 'm']) = num := remove_suffix 'e' ['m'] num he
  unfold styleValue
  rw [e1, e2, e3, e4]
  simp [float, (number_chars num h).1, hf]

omit [Num F] in
theorem value_rem (x : Ext F) (num : List Char) (h : CssNumber num) :
    styleValue x (num ++ ['r', 'e', 'm']) = .unit (x.value num) .rem := by
  have ha := fun q h1 h2 h3 h4 => number_absent num h q h1 h2 h3 h4
  have hp : 'p' ∉ num ++ ['r', 'e', 'm'] := by simp [ha 'p' (by decide) (by decide) (by decide) (by decide)]
  have hq : '_' ∉ num ++ ['r', 'e', 'm'] := by simp [ha '_' (by decide) (by decide) (by decide) (by decide)]
  have hr : 'r' ∉ num := ha 'r' (by decide) (by decide) (by decide) (by decide)
  have hf : isFloat (num ++ ['r', 'e', 'm']) = false := not_float_m _ (by simp)
  have e1 : remove "px".toList 0 (num ++ ['r', 'e', 'm']) = num ++ ['r', 'e', 'm'] :=
    remove_absent 'p' ['x'] _ hp
  have e2 : remove "__qem".toList 0 (num ++ ['r', 'e', 'm']) = num ++ ['r', 'e', 'm'] :=
    remove_absent '_' ['_', 'q', 'e', 'm'] _ hq
  have e3 : remove "rem".toList 0 (num ++ ['r', 'e', 'm']) = num := remove_suffix 'r' ['e', 'm'] num hr
  unfold styleValue
  rw [e1, e2, e3]
  simp [float, (number_chars num h).1, hf]

/-! ## The styles of a node as a map -/

omit [Num F] in
theorem get_set_same (st : NodeStyle F) (p : Property) (v : Value F) : (st.set p v).get p = some v := by
  induction st with
  | nil => simp [NodeStyle.set, NodeStyle.get]
  | cons e st ih =>
    unfold NodeStyle.set
    split
    · simp [NodeStyle.get]
    · split
      · simp [NodeStyle.get]
      · rename_i h _
        have : (e.1 == p.id) = false := by simpa using h
        simp only [NodeStyle.get, List.find?_cons, this] at ih ⊢
        exact ih

theorem id_inj (p q : Property) (h : p.id = q.id) : p = q := by
  have hb : ∀ p : Property, (([Property.color, .backgroundColor, .fontSize, .fontWeight, .display, .width,
      .height, .marginTop, .marginRight, .marginBottom, .marginLeft, .paddingTop, .paddingRight,
      .paddingBottom, .paddingLeft, .borderTopWidth, .borderRightWidth, .borderBottomWidth,
      .borderLeftWidth, .borderTopColor, .borderRightColor, .borderBottomColor, .borderLeftColor,
      .borderTopStyle, .borderRightStyle, .borderBottomStyle, .borderLeftStyle, .fontFamily, .flexBasis,
      .flexDirection, .flexGrow, .flexShrink, .flexWrap, .scrollbarWidth, .position, .minWidth, .minHeight,
      .maxWidth, .maxHeight, .borderTopLeftRadius, .borderTopRightRadius, .borderBottomLeftRadius,
      .borderBottomRightRadius, .aspectRatio, .gap, .alignItems, .alignSelf, .alignContent, .textAlign,
      .insetBlockEnd, .insetBlockStart, .insetInlineEnd, .insetInlineStart, .justifyItems, .justifySelf,
      .justifyContent, .overflowX, .overflowY, .boxSizing, .lineHeight, .textWrap, .gridRow, .gridColumn,
      .gridAutoFlow, .gridTemplateRows, .gridTemplateColumns, .gridAutoRows, .gridAutoColumns, .fontStyle,
      .whiteSpace, .textDecorationLine, .backgroundImage, .content, .opacity, .textTransform, .zIndex,
      .letterSpacing, .mixBlendMode] : List Property).getD p.id .color) = p := by
    intro p; cases p <;> rfl
  rw [← hb p, ← hb q, h]

omit [Num F] in
theorem get_set_other (st : NodeStyle F) (p q : Property) (v : Value F) (h : q ≠ p) :
    (st.set p v).get q = st.get q := by
  have hid : ∀ k : Nat, k = p.id → (k == q.id) = false := by
    intro k hk
    simp only [beq_eq_false_iff_ne]
    intro he
    exact h (id_inj q p (by rw [← he, hk]))
  induction st with
  | nil => simp [NodeStyle.set, NodeStyle.get, hid p.id rfl]
  | cons e st ih =>
    unfold NodeStyle.set
    split
    · rename_i he
      simp [NodeStyle.get, List.find?_cons, hid p.id rfl, hid e.1 he]
    · split
      · simp [NodeStyle.get, List.find?_cons, hid p.id rfl]
      · simp only [NodeStyle.get, List.find?_cons] at ih ⊢
        cases e.1 == q.id with
        | true => rfl
        | false => exact ih

omit [Num F] in
theorem get_sets (st : NodeStyle F) (l : List (Property × Value F)) (p : Property) :
    (st.sets l).get p = (lastFor p l).or (st.get p) := by
  induction l generalizing st with
  | nil => simp [NodeStyle.sets, lastFor]
  | cons e l ih =>
    have := ih (st.set e.1 e.2)
    simp only [NodeStyle.sets, List.foldl_cons] at this ⊢
    rw [this]
    unfold lastFor
    rw [List.reverse_cons, List.find?_append]
    cases hf : l.reverse.find? (fun e => e.1 = p) with
    | some w => simp
    | none =>
      by_cases hp : e.1 = p
      · subst hp
        simp [get_set_same]
      · simp [hp, get_set_other st e.1 p e.2 (fun h => hp h.symm)]

end Verif.Style
