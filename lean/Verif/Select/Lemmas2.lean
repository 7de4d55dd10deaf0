import Verif.Select.Lemmas

/-!
# Lemmas for C43: simple selectors, soundness and completeness
-/
namespace Verif.Select
open Verif

theorem hasSub_iff (w : Str) : ∀ g : Str, hasSub w g = true ↔ ∃ l r, g = l ++ w ++ r := by
  intro g
  induction g with
  | nil =>
    simp only [hasSub, List.isEmpty_iff]
    constructor
    · rintro rfl; exact ⟨[], [], rfl⟩
    · rintro ⟨l, r, h⟩
      have := congrArg List.length h
      simp at this
      exact List.length_eq_zero_iff.mp (by omega)
  | cons c g ih =>
    simp only [hasSub, Bool.or_eq_true, ih, List.isPrefixOf_iff_prefix]
    constructor
    · rintro (⟨r, h⟩ | ⟨l, r, h⟩)
      · exact ⟨[], r, by simp [h]⟩
      · exact ⟨c :: l, r, by simp [h]⟩
    · rintro ⟨l, r, h⟩
      cases l with
      | nil => left; exact ⟨r, by simpa using h.symm⟩
      | cons d l =>
        right
        simp at h
        exact ⟨l, r, by simpa using h.2⟩

theorem attrCompare_iff {m : Matcher} {w g : Str} (h1 : m ≠ .includes)
    (h2 : m = .pre ∨ m = .suf ∨ m = .sub → w ≠ []) : attrCompare m w g = true ↔ AttrSat m w g := by
  cases m with
  | none => simp [attrCompare, AttrSat]
  | equals => simp [attrCompare, AttrSat, eq_comm]
  | includes => exact absurd rfl h1
  | dash =>
    simp only [attrCompare, AttrSat, Bool.or_eq_true, decide_eq_true_eq, List.isPrefixOf_iff_prefix]
    constructor
    · rintro (h | ⟨r, h⟩)
      · exact .inl h
      · exact .inr ⟨r, by simp [← h]⟩
    · rintro (h | ⟨r, h⟩)
      · exact .inl h
      · exact .inr ⟨r, by simp [h]⟩
  | pre =>
    simp only [attrCompare, AttrSat, List.isPrefixOf_iff_prefix]
    constructor
    · rintro ⟨r, h⟩; exact ⟨h2 (.inl rfl), r, h.symm⟩
    · rintro ⟨_, r, h⟩; exact ⟨r, h.symm⟩
  | suf =>
    simp only [attrCompare, AttrSat, List.isSuffixOf_iff_suffix]
    constructor
    · rintro ⟨r, h⟩; exact ⟨h2 (.inr (.inl rfl)), r, h.symm⟩
    · rintro ⟨_, r, h⟩; exact ⟨r, h.symm⟩
  | sub =>
    simp only [attrCompare, AttrSat, hasSub_iff]
    exact ⟨fun h => ⟨h2 (.inr (.inr rfl)), h⟩, fun h => h.2⟩

theorem withParent_iff {v : View} {x : Nat} {f : Nat → Bool} :
    withParent v x f = true ↔ ∃ p, v.parent x = some p ∧ f p = true := by
  unfold withParent
  cases v.parent x <;> simp

theorem withTag_iff {v : View} {x : Nat} {f : Str → Bool} :
    withTag v x f = true ↔ ∃ p, v.tag x = some p ∧ f p = true := by
  unfold withTag
  cases v.tag x <;> simp

/-- the first element with a property is `x` exactly if `x` has it and none before -/
theorem filter_head {P : Nat → Bool} {x : Nat} (hx : P x = true) : ∀ {l : List Nat}, l.Nodup →
    ((l.filter P).head? = some x ↔ ∃ a b, l = a ++ x :: b ∧ ∀ y ∈ a, P y = false) := by
  intro l hn
  constructor
  · intro h
    induction l with
    | nil => simp at h
    | cons c r ih =>
      cases hc : P c with
      | true =>
        rw [List.filter_cons_of_pos hc] at h
        simp at h
        exact ⟨[], r, by simp [h], by simp⟩
      | false =>
        rw [List.filter_cons_of_neg (by simp [hc])] at h
        obtain ⟨a, b, h1, h2⟩ := ih (List.nodup_cons.mp hn).2 h
        refine ⟨c :: a, b, by rw [h1]; rfl, ?_⟩
        intro y hy
        rcases List.mem_cons.mp hy with rfl | hy
        · exact hc
        · exact h2 y hy
  · rintro ⟨a, b, rfl, h⟩
    rw [List.filter_append, List.filter_cons_of_pos hx]
    have : a.filter P = [] := by
      rw [List.filter_eq_nil_iff]; intro y hy; simp [h y hy]
    rw [this]; rfl

theorem filter_last {P : Nat → Bool} {x : Nat} (hx : P x = true) {l : List Nat} (hn : l.Nodup) :
    ((l.filter P).getLast? = some x ↔ ∃ a b, l = a ++ x :: b ∧ ∀ y ∈ b, P y = false) := by
  have h := filter_head (P := P) hx (l := l.reverse) (List.nodup_reverse.mpr hn)
  rw [List.filter_reverse, List.head?_reverse] at h
  rw [h]
  constructor
  · rintro ⟨a, b, h1, h2⟩
    refine ⟨b.reverse, a.reverse, ?_, ?_⟩
    · have := congrArg List.reverse h1
      simpa using this
    · intro y hy; exact h2 y (by simpa using hy)
  · rintro ⟨a, b, rfl, h2⟩
    exact ⟨b.reverse, a.reverse, by simp, fun y hy => h2 y (by simpa using hy)⟩

theorem filter_single {P : Nat → Bool} {x : Nat} (hx : P x = true) {l : List Nat} (hn : l.Nodup) :
    (l.filter P = [x] ↔ ∃ a b, l = a ++ x :: b ∧ ∀ y ∈ a ++ b, P y = false) := by
  constructor
  · intro h
    obtain ⟨a, b, h1, h2⟩ := (filter_head hx hn).mp (by rw [h]; rfl)
    refine ⟨a, b, h1, ?_⟩
    rw [h1, List.filter_append, List.filter_cons_of_pos hx] at h
    have ha : a.filter P = [] := by
      rw [List.filter_eq_nil_iff]; intro y hy; simp [h2 y hy]
    rw [ha] at h
    simp at h
    intro y hy
    rcases List.mem_append.mp hy with hy | hy
    · exact h2 y hy
    · simpa using h y hy
  · rintro ⟨a, b, rfl, h⟩
    rw [List.filter_append, List.filter_cons_of_pos hx]
    have ha : a.filter P = [] := by
      rw [List.filter_eq_nil_iff]; intro y hy; simp [h y (by simp [hy])]
    have hb : b.filter P = [] := by
      rw [List.filter_eq_nil_iff]; intro y hy; simp [h y (by simp [hy])]
    rw [ha, hb]; rfl

theorem among_iff {v : View} {x p : Nat} (hp : v.parent x = some p) {P : List Nat → List Nat → Prop} :
    Among v x P ↔ ∃ a b, v.children p = a ++ x :: b ∧ P a b := by
  constructor
  · rintro ⟨q, a, b, h1, h2, h3⟩
    rw [hp] at h1
    cases h1
    exact ⟨a, b, h2, h3⟩
  · rintro ⟨a, b, h2, h3⟩
    exact ⟨p, a, b, hp, h2, h3⟩

theorem among_none {v : View} {x : Nat} (hp : v.parent x = none) {P : List Nat → List Nat → Prop} :
    ¬ Among v x P := by
  rintro ⟨q, a, b, h1, -⟩
  rw [hp] at h1; cases h1

theorem elem_tag {v : View} (hv : v.Ok) {x : Nat} (hx : v.isElem x = true) : ∃ t, v.tag x = some t := by
  have := hv.tag x
  rw [hx] at this
  exact Option.isSome_iff_exists.mp this

theorem pseudo_exact {v : View} (hv : v.Ok) {x : Nat} (hx : v.isElem x = true) {k : Pseudo}
    (hk : k ∉ [Pseudo.checked, .disabled, .enabled, .readOnly, .readWrite])
    (he : k = .firstChild ∨ k = .lastChild → ElementsOnly v) : pseudoB v x k = true ↔ PseudoSat v x k := by
  obtain ⟨t, ht⟩ := elem_tag hv hx
  have hst : ∀ y, decide (v.tag y = some t) = false ↔ v.tag y ≠ v.tag x := by
    intro y; rw [ht]; simp
  have htx : decide (v.tag x = some t) = true := by simp [ht]
  cases k with
  | checked => simp at hk
  | disabled => simp at hk
  | enabled => simp at hk
  | readOnly => simp at hk
  | readWrite => simp at hk
  | hover => rfl
  | focus => rfl
  | link =>
    simp only [pseudoB, PseudoSat, hx, Bool.true_and, Bool.and_eq_true, withTag_iff, decide_eq_true_eq,
      Option.isSome_iff_exists]
    constructor
    · rintro ⟨⟨a, h1, h2⟩, h3⟩; exact ⟨⟨a, h2, h1⟩, h3⟩
    · rintro ⟨⟨a, h1, h2⟩, h3⟩; exact ⟨⟨a, h2, h1⟩, h3⟩
  | root =>
    simp only [pseudoB, PseudoSat, hx, Bool.true_and]
    unfold withParent
    cases v.parent x <;> simp
  | firstChild =>
    simp only [pseudoB, PseudoSat]
    cases hp : v.parent x with
    | none => simp [withParent, hp, among_none hp]
    | some p =>
      simp only [withParent, hp, among_iff hp, decide_eq_true_eq]
      have hall := he (.inl rfl) p
      constructor
      · intro h
        cases hc : v.children p with
        | nil => rw [hc] at h; simp at h
        | cons c r => rw [hc] at h; simp at h; exact ⟨[], r, by simp [h], by simp⟩
      · rintro ⟨a, b, h1, h2⟩
        cases a with
        | nil => rw [h1]; rfl
        | cons c a =>
          have := hall c (by rw [h1]; simp)
          rw [h2 c (by simp)] at this
          exact absurd this (by simp)
  | lastChild =>
    simp only [pseudoB, PseudoSat]
    cases hp : v.parent x with
    | none => simp [withParent, hp, among_none hp]
    | some p =>
      simp only [withParent, hp, among_iff hp, decide_eq_true_eq]
      have hall := he (.inr rfl) p
      constructor
      · intro h
        obtain ⟨a, ha⟩ := List.getLast?_eq_some_iff.mp h
        exact ⟨a, [], by simp [ha], by simp⟩
      · rintro ⟨a, b, h1, h2⟩
        cases b with
        | nil => rw [h1]; simp
        | cons c a =>
          have := hall c (by rw [h1]; simp)
          rw [h2 c (by simp)] at this
          exact absurd this (by simp)
  | firstOfType =>
    simp only [pseudoB, PseudoSat]
    cases hp : v.parent x with
    | none => simp [withParent, hp, among_none hp]
    | some p =>
      simp only [withParent, hp, among_iff hp, withTag, ht, decide_eq_true_eq]
      have hs := filter_head (P := fun c => decide (v.tag c = some t)) htx (hv.nodup p)
      simp only [hst, ht] at hs
      exact hs
  | lastOfType =>
    simp only [pseudoB, PseudoSat]
    cases hp : v.parent x with
    | none => simp [withParent, hp, among_none hp]
    | some p =>
      simp only [withParent, hp, among_iff hp, withTag, ht, decide_eq_true_eq]
      have hs := filter_last (P := fun c => decide (v.tag c = some t)) htx (hv.nodup p)
      simp only [hst, ht] at hs
      exact hs
  | onlyChild =>
    simp only [pseudoB, PseudoSat]
    cases hp : v.parent x with
    | none => simp [withParent, hp, among_none hp]
    | some p =>
      simp only [withParent, hp, among_iff hp, decide_eq_true_eq]
      exact filter_single hx (hv.nodup p)
  | onlyOfType =>
    simp only [pseudoB, PseudoSat]
    cases hp : v.parent x with
    | none => simp [withParent, hp, among_none hp]
    | some p =>
      simp only [withParent, hp, among_iff hp, withTag, ht, decide_eq_true_eq]
      have hs := filter_single (P := fun c => decide (v.tag c = some t)) htx (hv.nodup p)
      simp only [hst] at hs
      rw [show (∃ a b, v.children p = a ++ x :: b ∧ ∀ y ∈ a ++ b, v.tag y ≠ some t) ↔ sameTag v p t = [x] from by
        rw [← ht]; exact hs.symm]
      constructor
      · intro h
        obtain ⟨z, hz⟩ := List.length_eq_one_iff.mp h
        rcases hv.listed p x hp with hc | hc
        · have : x ∈ sameTag v p t := List.mem_filter.mpr ⟨hc, htx⟩
          rw [hz] at this ⊢
          simp at this; simp [this]
        · have : sameTag v p t = [] := by simp [sameTag, hc]
          rw [this] at h; simp at h
      · intro h; rw [h]; rfl

theorem pseudoOf_iff {n : Str} {k : Pseudo} : pseudoOf n = some k ↔ n ∈ k.names := by
  constructor
  · intro h
    have hall : ∀ e ∈ pseudoNames, e.1 ∈ e.2.names := by decide +kernel
    exact hall _ (Map.mem_of_look h)
  · have hall : ∀ k : Pseudo, ∀ n ∈ k.names, pseudoOf n = some k := by intro k; cases k <;> decide +kernel
    exact hall k n

theorem simple_exact {v : View} (hv : v.Ok) {ps : Option Str} {x : Nat} (hx : v.isElem x = true) {s : Simple}
    (hs : Plain v s) : simpleB v ps x s = true ↔ Sat v ps x s := by
  cases s with
  | universal => simp [simpleB, Sat]
  | type n => simp [simpleB, Sat, hx]
  | cls n => simp [simpleB, Sat]
  | id n => simp [simpleB, Sat, hx]
  | attr a =>
    obtain ⟨h1, h2, h3⟩ := hs
    simp only [simpleB, Sat, attrB, hx, Bool.not_true, Bool.false_eq_true, if_false, h1, AttrMatch]
    cases ha : v.attr x a.name with
    | none => simp
    | some g => simp [attrCompare_iff h2 h3]
  | pseudo n =>
    obtain ⟨k, h0, h1, h2⟩ := hs
    simp only [simpleB, Sat, PseudoNamed, ← pseudoOf_iff] at h0 ⊢
    simp [h0, pseudo_exact hv hx h1 h2]
  | pseudoElem n =>
    cases ps <;> simp [simpleB, Sat, eqIgnoreCase]

theorem pins_elem {v : View} (hv : v.Ok) {ps : Option Str} {x : Nat} {s : Simple} (hp : Pins s = true)
    (h : simpleB v ps x s = true) : v.isElem x = true := by
  have htag : ∀ {t : Str}, v.tag x = some t → v.isElem x = true := by
    intro t ht; have := hv.tag x; rw [ht] at this; simpa using this.symm
  cases s with
  | universal => simp [Pins] at hp
  | type n => simp [simpleB] at h; exact h.1
  | cls n =>
    cases hx : v.isElem x with
    | true => rfl
    | false => simp [simpleB, hv.cls x n hx] at h
  | id n => simp [simpleB] at h; exact h.1
  | attr a =>
    cases hx : v.isElem x with
    | true => rfl
    | false => simp [simpleB, attrB, hx] at h
  | pseudo n =>
    simp only [Pins, decide_eq_true_eq] at hp
    simp only [simpleB] at h
    cases hn : pseudoOf n with
    | none => rw [hn] at h; simp at h
    | some k =>
      rw [hn] at h hp
      simp at hp
      rcases hp with rfl | rfl | rfl | rfl | rfl
      · simp [pseudoB] at h; exact h.1.1
      · simp only [pseudoB, withParent_iff, withTag_iff] at h
        obtain ⟨_, _, t, ht, _⟩ := h; exact htag ht
      · simp only [pseudoB, withParent_iff, withTag_iff] at h
        obtain ⟨_, _, t, ht, _⟩ := h; exact htag ht
      · simp only [pseudoB, withParent_iff, decide_eq_true_eq] at h
        obtain ⟨p, _, h⟩ := h
        have : x ∈ elemChildren v p := by rw [h]; simp
        exact (List.mem_filter.mp this).2
      · simp [pseudoB] at h; exact h.1
  | pseudoElem n => simp [Pins] at hp

end Verif.Select
