import Verif.Quirks.Spec

/-! # C139: the mode of a document -/
namespace Verif.Quirks

/-- what all identifiers in the tables have in common -/
def Plain (p : List Char) : Prop := (∀ c ∈ p, c.toNat < 128 ∧ asciiLower c = c ∧ c ≠ 'k') ∧ p.getLast? ≠ some 'i'

instance (p : List Char) : Decidable (Plain p) := by unfold Plain; infer_instance

theorem lower_ascii (low : Char → List Char) {c : Char} (h : c.toNat < 128) : lower low c = [asciiLower c] := by
  unfold lower asciiLower; rw [if_pos h]

theorem lower_ne {low : Char → List Char} (hl : Foreign low) (c : Char) : lower low c ≠ [] := by
  unfold lower
  split
  · simp
  split
  · simp
  split
  · simp
  · next h _ _ =>
    obtain ⟨x, r, h1, _⟩ := hl c (by omega)
    simp [h1]

theorem ascii_of_lower {c : Char} (h : (asciiLower c).toNat < 128) : c.toNat < 128 := by
  unfold asciiLower at h
  split at h
  · next hc =>
    have : c.val ≤ 'Z'.val := hc.2
    have h2 : c.toNat ≤ 90 := this
    omega
  · exact h

theorem flat_map (low : Char → List Char) {a : List Char} (h : ∀ c ∈ a, c.toNat < 128) :
    a.flatMap (lower low) = a.map asciiLower := by
  induction a with
  | nil => rfl
  | cons c a ih =>
    rw [List.flatMap_cons, lower_ascii low (h c (by simp)), ih (fun x hx => h x (by simp [hx]))]; rfl

theorem plain_tail {c : Char} {p : List Char} (h : Plain (c :: p)) : Plain p := by
  refine ⟨fun x hx => h.1 x (by simp [hx]), ?_⟩
  intro hp
  apply h.2
  cases p with
  | nil => cases hp
  | cons d p => rw [List.getLast?_cons_cons]; exact hp

/-- a plain text that begins the lower case of `v` is that of the characters `v` begins with -/
theorem prefix_split {low : Char → List Char} (hl : Foreign low) : ∀ (v p : List Char), Plain p →
    p <+: v.flatMap (lower low) → ∃ a b, v = a ++ b ∧ a.map asciiLower = p ∧ a.flatMap (lower low) = p := by
  intro v
  induction v with
  | nil =>
    intro p _ h
    have : p = [] := by simpa using h
    exact ⟨[], [], rfl, this.symm, this.symm⟩
  | cons x v ih =>
    intro p hp h
    cases p with
    | nil => exact ⟨[], x :: v, rfl, rfl, rfl⟩
    | cons c p =>
      have hc := hp.1 c (by simp)
      rw [List.flatMap_cons] at h
      by_cases hx : x.toNat < 128
      · rw [lower_ascii low hx, List.singleton_append, List.cons_prefix_cons] at h
        obtain ⟨a, b, h1, h2, h3⟩ := ih p (plain_tail hp) h.2
        refine ⟨x :: a, b, by rw [h1]; rfl, by rw [List.map_cons, h2, h.1], ?_⟩
        rw [List.flatMap_cons, lower_ascii low hx, h3, h.1]; rfl
      · exfalso
        unfold lower at h
        rw [if_neg hx] at h
        split at h
        · rw [List.singleton_append, List.cons_prefix_cons] at h
          exact hc.2.2 h.1
        · split at h
          · rw [List.cons_append, List.cons_prefix_cons, List.singleton_append] at h
            cases p with
            | nil => exact hp.2 (by rw [h.1]; rfl)
            | cons d p =>
              rw [List.cons_prefix_cons] at h
              have hd := (hp.1 d (by simp)).1
              rw [h.2.1] at hd
              exact absurd hd (by decide)
          · obtain ⟨y, r, h1, h2⟩ := hl x (by omega)
            rw [h1, List.cons_append, List.cons_prefix_cons] at h
            have := hc.1
            rw [h.1] at this
            omega

theorem begins_iff {low : Char → List Char} (hl : Foreign low) {p q : List Char} (hp : Plain p) (hq : q.map asciiLower = p)
    (v : List Char) : p.isPrefixOf (v.flatMap (lower low)) = true ↔ Begins q v := by
  rw [List.isPrefixOf_iff_prefix]
  constructor
  · intro h
    obtain ⟨a, b, h1, h2, _⟩ := prefix_split hl v p hp h
    exact ⟨a, b, h1, by unfold Same; rw [h2, hq]⟩
  · rintro ⟨a, b, h1, h2⟩
    unfold Same at h2
    rw [hq] at h2
    have ha : ∀ c ∈ a, c.toNat < 128 := by
      intro c hc
      apply ascii_of_lower
      refine (hp.1 (asciiLower c) ?_).1
      rw [← h2]
      exact List.mem_map.2 ⟨c, hc, rfl⟩
    rw [h1, List.flatMap_append, flat_map low ha, h2]
    exact List.prefix_append _ _

theorem same_iff {low : Char → List Char} (hl : Foreign low) {p q : List Char} (hp : Plain p) (hq : q.map asciiLower = p)
    (v : List Char) : v.flatMap (lower low) = p ↔ Same v q := by
  constructor
  · intro h
    obtain ⟨a, b, h1, h2, h3⟩ := prefix_split hl v p hp (h ▸ List.prefix_rfl)
    rw [h1, List.flatMap_append, h3] at h
    have hb : b = [] := by
      cases b with
      | nil => rfl
      | cons y b =>
        have h4 : (y :: b).flatMap (lower low) = [] := List.append_right_eq_self.1 h
        rw [List.flatMap_cons] at h4
        exact absurd (List.append_eq_nil_iff.1 h4).1 (lower_ne hl y)
    unfold Same
    rw [h1, hb, List.append_nil, h2, hq]
  · intro h
    unfold Same at h
    rw [hq] at h
    have ha : ∀ c ∈ v, c.toNat < 128 := by
      intro c hc
      apply ascii_of_lower
      refine (hp.1 (asciiLower c) ?_).1
      rw [← h]
      exact List.mem_map.2 ⟨c, hc, rfl⟩
    rw [flat_map low ha, h]

theorem starts_iff {low : Char → List Char} (hl : Foreign low) {t s : List (List Char)} (ht : ∀ p ∈ t, Plain p)
    (hs : s.map (List.map asciiLower) = t) (v : List Char) :
    startsWithAny t (v.flatMap (lower low)) = true ↔ ∃ q ∈ s, Begins q v := by
  unfold startsWithAny
  rw [List.any_eq_true]
  constructor
  · rintro ⟨p, hp, h⟩
    obtain ⟨q, hq, rfl⟩ := List.mem_map.1 (hs ▸ hp)
    exact ⟨q, hq, (begins_iff hl (ht _ hp) rfl v).1 h⟩
  · rintro ⟨q, hq, h⟩
    have hp : q.map asciiLower ∈ t := hs ▸ List.mem_map.2 ⟨q, hq, rfl⟩
    exact ⟨_, hp, (begins_iff hl (ht _ hp) rfl v).2 h⟩

theorem equals_iff {low : Char → List Char} (hl : Foreign low) {t s : List (List Char)} (ht : ∀ p ∈ t, Plain p)
    (hs : s.map (List.map asciiLower) = t) (v : List Char) :
    t.contains (v.flatMap (lower low)) = true ↔ ∃ q ∈ s, Same v q := by
  rw [List.contains_iff_mem]
  constructor
  · intro hp
    obtain ⟨q, hq, h⟩ := List.mem_map.1 (hs ▸ hp)
    exact ⟨q, hq, (same_iff hl (ht _ hp) h v).1 rfl⟩
  · rintro ⟨q, hq, h⟩
    have hp : q.map asciiLower ∈ t := hs ▸ List.mem_map.2 ⟨q, hq, rfl⟩
    rw [(same_iff hl (ht _ hp) rfl v).2 h]
    exact hp

/-- **C139** The mode of a document is the one that the HTML standard asks for its doctype, unless its system
identifier begins with that of IBM's transitional XHTML. Missing: these system identifiers, for which the claim
fails in two ways (`C139_longer_violated`, `C139_order_violated`). If it is this identifier and the public
identifier does not ask for limited quirks, the mode is right too. -/
theorem C139_mode_partial {low : Char → List Char} (hl : Foreign low) (name pub sys : Option (List Char)) (force : Bool)
    (hs : ∀ v, sys = some v → Begins quirkySystem v → Same v quirkySystem ∧ ¬ Limited pub sys) :
    Right name pub sys force (identify low name pub sys force) := by
  have e1 := equals_iff hl (t := pubEq) (s := quirkyPublic) (by decide +kernel) (by decide +kernel)
  have e2 := starts_iff hl (t := pubPrefix) (s := quirkyStarts) (by decide +kernel) (by decide +kernel)
  have e3 := starts_iff hl (t := limitedPrefixSys) (s := html401) (by decide +kernel) (by decide +kernel)
  have e4 := starts_iff hl (t := pubPrefixNoSys) (s := html401) (by decide +kernel) (by decide +kernel)
  have e5 := starts_iff hl (t := limitedPrefix) (s := xhtml10) (by decide +kernel) (by decide +kernel)
  have e6 := starts_iff hl (t := sysEq) (s := [quirkySystem]) (by decide +kernel) (by decide +kernel)
  have hname : name.getD [] ≠ "html".toList ↔ name ≠ some "html".toList := by
    cases name with
    | none => exact ⟨fun _ h => by (cases h), fun _ h => absurd h (by decide)⟩
    | some n => simp
  have hbegin : ∀ v, Same v quirkySystem → Begins quirkySystem v := fun v h => ⟨v, [], by simp, h⟩
  have hsys : ∀ v, sys = some v → (startsWithAny sysEq (v.flatMap (lower low)) = true ↔ Same v quirkySystem) := by
    intro v hv
    rw [e6]
    simp only [List.mem_singleton, exists_eq_left]
    exact ⟨fun h => (hs v hv h).1, hbegin v⟩
  have hsl : ∀ v, sys = some v → Same v quirkySystem → ¬ Limited pub sys := fun v hv h => (hs v hv (hbegin v h)).2
  unfold identify
  by_cases hf : force = true
  · simp only [hf, Bool.true_or, if_true]; exact .inl rfl
  by_cases hn : name ≠ some "html".toList
  · rw [if_pos (by rw [Bool.or_eq_true]; exact .inr (decide_eq_true (hname.2 hn)))]
    exact .inr (.inl hn)
  have hn : name = some "html".toList := Classical.not_not.1 hn
  rw [if_neg (by simp [hn, hf])]
  have hq0 : Quirky name pub sys force ↔
      (∃ v, pub = some v ∧ ((∃ q ∈ quirkyPublic, Same v q) ∨ ∃ q ∈ quirkyStarts, Begins q v)) ∨
      (∃ v, sys = some v ∧ Same v quirkySystem) ∨
      (sys = none ∧ ∃ v, pub = some v ∧ ∃ q ∈ html401, Begins q v) := by
    unfold Quirky
    constructor
    · rintro (h | h | h)
      · exact absurd h hf
      · exact absurd hn h
      · exact h
    · exact fun h => .inr (.inr h)
  have hlast : ∀ (_ : ¬ Limited pub sys)
      (_ : Quirky name pub sys force ↔ ∃ v, sys = some v ∧ Same v quirkySystem),
      Right name pub sys force (bySystem low sys) := by
    intro h1 h2
    unfold bySystem
    cases hsy : sys with
    | none =>
      rw [hsy] at h1 h2
      refine ⟨fun h => ?_, h1⟩
      obtain ⟨v, hv, _⟩ := h2.1 h
      cases hv
    | some v =>
      simp only
      rw [← hsy]
      split
      · next h => exact h2.2 ⟨v, hsy, (hsys v hsy).1 h⟩
      · next h =>
        refine ⟨fun hq => ?_, h1⟩
        obtain ⟨w, hw, hs'⟩ := h2.1 hq
        exact h ((hsys v hsy).2 (by rw [hsy] at hw; cases hw; exact hs'))
  cases hp : pub with
  | none =>
    rw [hp] at hlast hq0
    simp only [Option.bind_none]
    refine hlast ?_ ?_
    · rintro (⟨v, h, _⟩ | ⟨_, v, h, _⟩) <;> cases h
    · rw [hq0]
      constructor
      · rintro (⟨v, h, _⟩ | h | ⟨_, v, h, _⟩)
        · cases h
        · exact h
        · cases h
      · exact fun h => .inr (.inl h)
  | some v =>
    rw [hp] at hlast hq0 hsl
    simp only [Option.bind_some]
    unfold byPublic
    simp only
    by_cases h1 : pubEq.contains (v.flatMap (lower low)) = true
    · rw [if_pos h1]
      exact hq0.2 (.inl ⟨v, rfl, .inl ((e1 v).1 h1)⟩)
    rw [if_neg h1]
    by_cases h2 : startsWithAny pubPrefix (v.flatMap (lower low)) = true
    · rw [if_pos h2]
      exact hq0.2 (.inl ⟨v, rfl, .inr ((e2 v).1 h2)⟩)
    rw [if_neg h2]
    have hno : ¬ ∃ w, some v = some w ∧ ((∃ q ∈ quirkyPublic, Same w q) ∨ ∃ q ∈ quirkyStarts, Begins q w) := by
      rintro ⟨w, hw, h | h⟩
      · cases hw; exact h1 ((e1 _).2 h)
      · cases hw; exact h2 ((e2 _).2 h)
    have hlim : Limited (some v) sys → (sys = none → ¬ ∃ q ∈ html401, Begins q v) → ¬ Quirky name (some v) sys force := by
      intro hL hs4 hq
      rcases hq0.1 hq with h | ⟨w, hw, h⟩ | ⟨hy, w, hw, h⟩
      · exact hno h
      · exact hsl w hw h hL
      · cases hw; exact hs4 hy h
    by_cases h3 : (sys.isSome && startsWithAny limitedPrefixSys (v.flatMap (lower low))) = true
    · rw [if_pos h3]
      rw [Bool.and_eq_true, e3] at h3
      have hne : sys ≠ none := Option.isSome_iff_ne_none.1 h3.1
      have hL : Limited (some v) sys := .inr ⟨hne, v, rfl, h3.2⟩
      exact ⟨hlim hL (fun h => absurd h hne), hL⟩
    rw [if_neg h3]
    by_cases h4 : (sys.isNone && startsWithAny pubPrefixNoSys (v.flatMap (lower low))) = true
    · rw [if_pos h4]
      rw [Bool.and_eq_true, e4] at h4
      exact hq0.2 (.inr (.inr ⟨Option.isNone_iff_eq_none.1 h4.1, v, rfl, h4.2⟩))
    rw [if_neg h4]
    have h401 : ¬ ∃ q ∈ html401, Begins q v := by
      intro h
      cases hsy : sys with
      | none => exact h4 (by rw [Bool.and_eq_true, e4]; exact ⟨by rw [hsy]; rfl, h⟩)
      | some w => exact h3 (by rw [Bool.and_eq_true, e3]; exact ⟨by rw [hsy]; rfl, h⟩)
    by_cases h5 : startsWithAny limitedPrefix (v.flatMap (lower low)) = true
    · rw [if_pos h5]
      have hL : Limited (some v) sys := .inl ⟨v, rfl, (e5 v).1 h5⟩
      exact ⟨hlim hL (fun _ => h401), hL⟩
    rw [if_neg h5]
    refine hlast ?_ ?_
    · rintro (⟨w, hw, h⟩ | ⟨_, w, hw, h⟩)
      · cases hw; exact h5 ((e5 _).2 h)
      · cases hw; exact h401 h
    · rw [hq0]
      constructor
      · rintro (h | h | ⟨_, w, hw, h⟩)
        · exact absurd h hno
        · exact h
        · cases hw; exact absurd h h401
      · exact fun h => .inr (.inl h)

/-- the mode that the standard asks for is unique -/
theorem C139_one {name pub sys : Option (List Char)} {force : Bool} {m m' : Mode} (h : Right name pub sys force m)
    (h' : Right name pub sys force m') : m = m' := by
  cases m <;> cases m' <;> first | rfl | exact absurd h h'.1 | exact absurd h' h.1 | exact absurd h.2 h'.2 | exact absurd h'.2 h.2

theorem foreign_self : Foreign fun c => [c] := fun c h => ⟨c, [], rfl, h⟩

example : Foreign (fun c => [c]) ∧
    identify (fun c => [c]) (some "html".toList) (some "-//W3C//DTD HTML 4.01 Transitional//EN".toList) none false = .quirks ∧
    identify (fun c => [c]) (some "html".toList) (some "-//W3C//DTD HTML 4.01 Transitional//EN".toList)
      (some "http://www.w3.org/TR/html4/loose.dtd".toList) false = .limited ∧
    identify (fun c => [c]) (some "html".toList) none none false = .no ∧
    identify (fun c => [c]) (some "html".toList) none (some quirkySystem) false = .quirks :=
  ⟨foreign_self, by decide +kernel, by decide +kernel, by decide +kernel, by decide +kernel⟩

/-- a system identifier that is longer than the one of the standard gives quirks mode, not no-quirks mode -/
theorem C139_longer_violated : ∃ name pub sys, ∀ low, Foreign low →
    ¬ Right name pub sys false (identify low name pub sys false) := by
  refine ⟨some "html".toList, none, some (quirkySystem ++ ['x']), fun low _ h => ?_⟩
  have : identify low (some "html".toList) none (some (quirkySystem ++ ['x'])) false = .quirks := by
    have h1 : (quirkySystem ++ ['x']).flatMap (lower low) = quirkySystem ++ ['x'] := by
      rw [flat_map low (by decide +kernel)]; decide +kernel
    unfold identify bySystem
    simp only [Option.bind_none, h1]
    decide +kernel
  rw [this] at h
  rcases h with h | h | ⟨v, h, _⟩ | ⟨v, h, h2⟩ | ⟨h, _⟩
  · cases h
  · exact h rfl
  · cases h
  · cases h
    exact absurd h2 (by unfold Same; decide +kernel)
  · cases h

/-- the system identifier of the standard does not give quirks mode if the public one is that of XHTML 1.0 Transitional -/
theorem C139_order_violated : ∃ name pub sys, ∀ low, Foreign low →
    Right name pub sys false .quirks ∧ identify low name pub sys false = .limited := by
  refine ⟨some "html".toList, some "-//W3C//DTD XHTML 1.0 Transitional//EN".toList, some quirkySystem, fun low _ =>
    ⟨.inr (.inr (.inr (.inl ⟨_, rfl, rfl⟩))), ?_⟩⟩
  have h1 : ("-//W3C//DTD XHTML 1.0 Transitional//EN".toList).flatMap (lower low) = "-//w3c//dtd xhtml 1.0 transitional//en".toList := by
    rw [flat_map low (by decide +kernel)]; decide +kernel
  have h2 : byPublic low "-//W3C//DTD XHTML 1.0 Transitional//EN".toList (some quirkySystem) = some .limited := by
    unfold byPublic
    simp only [h1]
    decide +kernel
  unfold identify
  rw [Option.bind_some, h2, if_neg (by decide)]

end Verif.Quirks
