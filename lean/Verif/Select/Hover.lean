import Verif.Select.Lemmas3

/-!
# Lemmas for C46
-/
namespace Verif.Select
open Verif

/-- the simple selectors since the last combinator, after `seen` -/
def segFrom : List Simple → List Part → List Simple
  | seen, [] => seen
  | _, .comb _ :: r => segFrom [] r
  | seen, .simple s :: r => segFrom (seen ++ [s]) r

theorem segFrom_append : ∀ (a b : List Part) (seen : List Simple),
    segFrom seen (a ++ b) = segFrom (segFrom seen a) b := by
  intro a
  induction a with
  | nil => intro b seen; rfl
  | cons p a ih =>
    intro b seen
    cases p with
    | simple s => simp only [List.cons_append, segFrom, ih]
    | comb c => simp only [List.cons_append, segFrom, ih]

theorem segFrom_simples : ∀ (c seen : List Simple), segFrom seen (c.map Part.simple) = seen ++ c := by
  intro c
  induction c with
  | nil => intro seen; simp [segFrom]
  | cons s c ih => intro seen; simp [segFrom, ih]

/-- the simple selector is named in the fingerprint -/
def Recorded (fp : Prints) : Simple → Prop
  | .type n => n ∈ fp.types
  | .cls n => n ∈ fp.classes
  | .id n => n ∈ fp.ids
  | _ => False

/-- everything named in the first is named in the second -/
def Prints.Sub (a b : Prints) : Prop := a.types ⊆ b.types ∧ a.classes ⊆ b.classes ∧ a.ids ⊆ b.ids

theorem Prints.Sub.refl (a : Prints) : a.Sub a := ⟨fun _ h => h, fun _ h => h, fun _ h => h⟩

theorem Prints.Sub.trans {a b c : Prints} (h1 : a.Sub b) (h2 : b.Sub c) : a.Sub c :=
  ⟨fun _ h => h2.1 (h1.1 h), fun _ h => h2.2.1 (h1.2.1 h), fun _ h => h2.2.2 (h1.2.2 h)⟩

theorem Recorded.mono {a b : Prints} (h : a.Sub b) {s : Simple} (hs : Recorded a s) : Recorded b s := by
  cases s with
  | type n => exact h.1 hs
  | cls n => exact h.2.1 hs
  | id n => exact h.2.2 hs
  | _ => exact hs

theorem sub_add (fp : Prints) (s : Simple) : fp.Sub (fp.add s) := by
  cases s <;>
    first
    | exact ⟨fun _ h => List.mem_cons_of_mem _ h, fun _ h => h, fun _ h => h⟩
    | exact ⟨fun _ h => h, fun _ h => List.mem_cons_of_mem _ h, fun _ h => h⟩
    | exact ⟨fun _ h => h, fun _ h => h, fun _ h => List.mem_cons_of_mem _ h⟩
    | exact .refl fp

theorem sub_fold : ∀ (l : List Simple) (fp : Prints), fp.Sub (l.foldl Prints.add fp)
  | [], fp => .refl fp
  | s :: l, fp => (sub_add fp s).trans (sub_fold l (fp.add s))

theorem recorded_fold : ∀ (l : List Simple) (fp : Prints) (s : Simple), s ∈ l → isSpecific s = true →
    Recorded (l.foldl Prints.add fp) s := by
  intro l
  induction l with
  | nil => intro fp s h; simp at h
  | cons t l ih =>
    intro fp s h hs
    rcases List.mem_cons.mp h with rfl | h
    · refine Recorded.mono (sub_fold l (fp.add s)) ?_
      cases s <;> simp_all [isSpecific, Recorded, Prints.add]
    · exact ih (fp.add t) s h hs

theorem universal_fold : ∀ (l : List Simple) (fp : Prints), (l.foldl Prints.add fp).universal = fp.universal := by
  intro l
  induction l with
  | nil => intro fp; rfl
  | cons t l ih =>
    intro fp
    simp only [List.foldl_cons, ih]
    cases t <;> rfl

/-- every `:hover` comes after a simple selector of its compound that the fingerprint names -/
def Covered (fp : Prints) (seen : List Simple) (l : List Part) : Prop :=
  ∀ pre post, l = pre ++ .simple hoverPart :: post → ∃ s ∈ segFrom seen pre, Recorded fp s

theorem printParts_facts : ∀ (l : List Part) (seen : List Simple) (fp fp' : Prints),
    (printParts l seen fp = (fp', false) → fp.Sub fp' ∧ fp'.universal = fp.universal ∧ Covered fp' seen l) ∧
    (printParts l seen fp = (fp', true) → fp'.universal = true) := by
  intro l
  induction l with
  | nil =>
    intro seen fp fp'
    refine ⟨fun h => ?_, fun h => by simp [printParts] at h⟩
    simp only [printParts, Prod.mk.injEq, and_true] at h
    subst h
    refine ⟨.refl _, rfl, ?_⟩
    intro pre post h
    cases pre <;> simp at h
  | cons p l ih =>
    intro seen fp fp'
    cases p with
    | comb c =>
      simp only [printParts]
      refine ⟨fun h => ?_, fun h => (ih [] fp fp').2 h⟩
      obtain ⟨h1, h2, h3⟩ := (ih [] fp fp').1 h
      refine ⟨h1, h2, ?_⟩
      intro pre post h
      cases pre with
      | nil => simp at h
      | cons q pre =>
        simp only [List.cons_append, List.cons.injEq] at h
        obtain ⟨rfl, h⟩ := h
        exact h3 pre post h
    | simple s =>
      simp only [printParts]
      by_cases hs : s = hoverPart
      · subst hs
        simp only [ne_eq, not_true_eq_false, if_false]
        by_cases ha : (seen ++ [hoverPart]).any isSpecific = true
        · simp only [ha, if_true]
          refine ⟨fun h => ?_, fun h => (ih _ _ fp').2 h⟩
          obtain ⟨h1, h2, h3⟩ := (ih _ _ fp').1 h
          refine ⟨(sub_fold _ fp).trans h1, by rw [h2, universal_fold], ?_⟩
          intro pre post h
          cases pre with
          | nil =>
            obtain ⟨t, ht, hts⟩ := List.any_eq_true.mp ha
            have ht' : t ∈ seen := by
              rcases List.mem_append.mp ht with h | h
              · exact h
              · simp at h; subst h; simp [isSpecific, hoverPart] at hts
            exact ⟨t, ht', Recorded.mono h1 (recorded_fold _ fp t ht hts)⟩
          | cons q pre =>
            simp only [List.cons_append, List.cons.injEq] at h
            obtain ⟨rfl, h⟩ := h
            exact h3 pre post h
        · simp only [ha]
          refine ⟨fun h => by simp at h, fun h => ?_⟩
          simp at h
          rw [← h]
      · simp only [ne_eq, hs, not_false_eq_true, if_true]
        refine ⟨fun h => ?_, fun h => (ih _ fp fp').2 h⟩
        obtain ⟨h1, h2, h3⟩ := (ih _ fp fp').1 h
        refine ⟨h1, h2, ?_⟩
        intro pre post h
        cases pre with
        | nil => simp at h; exact absurd h.1 hs
        | cons q pre =>
          simp only [List.cons_append, List.cons.injEq] at h
          obtain ⟨rfl, h⟩ := h
          exact h3 pre post h

theorem Covered.mono {a b : Prints} (h : a.Sub b) {seen : List Simple} {l : List Part} (hc : Covered a seen l) :
    Covered b seen l := by
  intro pre post he
  obtain ⟨s, h1, h2⟩ := hc pre post he
  exact ⟨s, h1, h2.mono h⟩

theorem printsFrom_facts : ∀ (ls : List (List Part)) (fp : Prints), (printsFrom ls fp).universal = false →
    fp.universal = false →
    fp.Sub (printsFrom ls fp) ∧ ∀ l ∈ ls, Covered (printsFrom ls fp) [] l := by
  intro ls
  induction ls with
  | nil => intro fp _ _; exact ⟨.refl fp, by simp⟩
  | cons l ls ih =>
    intro fp h hu
    rcases hp : printParts l [] fp with ⟨fp', b⟩
    cases b with
    | true =>
      simp only [printsFrom, hp] at h
      rw [(printParts_facts l [] fp fp').2 hp] at h
      exact absurd h (by simp)
    | false =>
      simp only [printsFrom, hp] at h ⊢
      obtain ⟨h1, h2, h3⟩ := (printParts_facts l [] fp fp').1 hp
      obtain ⟨h4, h5⟩ := ih fp' h (by rw [h2, hu])
      refine ⟨h1.trans h4, ?_⟩
      intro m hm
      rcases List.mem_cons.mp hm with rfl | hm
      · exact h3.mono h4
      · exact h5 m hm

theorem covered_of {ls : List (List Part)} (h : (hoverPrints ls).universal = false) {l : List Part} (hl : l ∈ ls) :
    Covered (hoverPrints ls) [] l := (printsFrom_facts ls _ h rfl).2 l hl

theorem pseudoOf_hover {n : Str} : pseudoOf n = some .hover ↔ n = "hover".toList := by
  constructor
  · intro h
    have hall : ∀ e ∈ pseudoNames, e.2 = .hover → e.1 = "hover".toList := by decide
    exact hall _ (Map.mem_of_look h) rfl
  · rintro rfl; decide

/-- a named simple selector fails on an untouched node -/
theorem recorded_fails {fp : Prints} {v : View} {ps : Option Str} {x : Nat} {s : Simple} (hs : Recorded fp s)
    (hx : ¬ Touched fp v x) : simpleB v ps x s = false ∧ ¬ Sat v ps x s := by
  simp only [Touched, not_or] at hx
  obtain ⟨-, h1, h2, h3⟩ := hx
  cases s with
  | type n =>
    have : v.tag x ≠ some n := fun h => h1 ⟨n, hs, h⟩
    exact ⟨by simp [simpleB, this], this⟩
  | cls n =>
    have : v.hasClass x n ≠ true := fun h => h2 ⟨n, hs, h⟩
    exact ⟨by simpa [simpleB] using this, this⟩
  | id n =>
    have : v.attr x "id".toList ≠ some n := fun h => h3 ⟨n, hs, h⟩
    exact ⟨by simp only [simpleB, Bool.and_eq_false_imp, decide_eq_false_iff_not]; exact fun _ => this, this⟩
  | universal => exact absurd hs (by simp [Recorded])
  | attr a => exact absurd hs (by simp [Recorded])
  | pseudo n => exact absurd hs (by simp [Recorded])
  | pseudoElem n => exact absurd hs (by simp [Recorded])

theorem HoverDiff.symm {v w : View} (h : HoverDiff v w) : HoverDiff w v :=
  ⟨h.parent.symm, h.children.symm, h.isElem.symm, h.tag.symm, h.ns.symm, h.attr.symm, h.hasClass.symm,
    h.focused.symm, h.anc.symm⟩

theorem touched_diff {v w : View} (h : HoverDiff v w) (fp : Prints) (x : Nat) : Touched fp w x ↔ Touched fp v x := by
  unfold Touched; rw [h.tag, h.hasClass, h.attr]

theorem insensitive_symm {v w : View} (h : HoverDiff v w) {ls : List (List Part)} (hi : Insensitive ls v w) :
    Insensitive ls w v := by
  intro x hx
  rw [touched_diff h]
  exact hi x (fun e => hx e.symm)

theorem HoverDiff.eq {v w : View} (h : HoverDiff v w) : ∃ g, w = { v with hovered := g } := by
  refine ⟨w.hovered, ?_⟩
  obtain ⟨h1, h2, h3, h4, h5, h6, h7, h8, h9⟩ := h
  cases v; cases w
  simp only at h1 h2 h3 h4 h5 h6 h7 h8 h9
  subst h1 h2 h3 h4 h5 h6 h7 h8 h9
  rfl

/-- apart from hovering, the tests on one node give the same -/
theorem simpleB_diff {v w : View} (h : HoverDiff v w) (ps : Option Str) (x : Nat) {s : Simple}
    (hs : s ≠ hoverPart ∨ v.hovered x = w.hovered x) : simpleB w ps x s = simpleB v ps x s := by
  obtain ⟨g, rfl⟩ := h.eq
  cases s with
  | pseudo n =>
    simp only [simpleB]
    cases hn : pseudoOf n with
    | none => rfl
    | some k =>
      cases k with
      | hover =>
        rcases hs with hs | hs
        · exact absurd (by rw [pseudoOf_hover.mp hn]; rfl) hs
        · simp only [pseudoB]; exact hs.symm
      | _ => rfl
  | _ => rfl

theorem sat_diff {v w : View} (h : HoverDiff v w) (ps : Option Str) (x : Nat) {s : Simple}
    (hs : s ≠ hoverPart ∨ v.hovered x = w.hovered x) : Sat w ps x s ↔ Sat v ps x s := by
  obtain ⟨g, rfl⟩ := h.eq
  cases s with
  | pseudo n =>
    simp only [Sat, PseudoNamed, ← pseudoOf_iff]
    cases hn : pseudoOf n with
    | none => simp
    | some k =>
      simp only [Option.some.injEq, exists_eq_left']
      cases k with
      | hover =>
        rcases hs with hs | hs
        · exact absurd (by rw [pseudoOf_hover.mp hn]; rfl) hs
        · simp only [PseudoSat]; rw [hs]
      | _ => rfl
  | _ => rfl

theorem related_diff {v w : View} (h : HoverDiff v w) (k : Rel) (x y : Nat) : Related w k x y ↔ Related v k x y := by
  have hp : Parent w = Parent v := by
    funext a b; unfold Parent; rw [h.parent]
  cases k <;> simp [Related, Before, hp, h.parent, h.children, h.isElem]

/-- a compound with `:hover` has a simple selector that the fingerprint names -/
def Complex.Guarded (fp : Prints) : Complex → Prop
  | .compound c => hoverPart ∈ c → ∃ s ∈ c, Recorded fp s
  | .link l _ c => (hoverPart ∈ c → ∃ s ∈ c, Recorded fp s) ∧ l.Guarded fp

theorem guarded_of_covered {fp : Prints} : ∀ (sel : Complex), Covered fp [] sel.parts → sel.Guarded fp := by
  intro sel
  induction sel with
  | compound c =>
    intro h hc
    obtain ⟨a, b, rfl⟩ := List.append_of_mem hc
    obtain ⟨s, h1, h2⟩ := h (a.map Part.simple) (b.map Part.simple) (by simp [Complex.parts])
    rw [segFrom_simples] at h1
    exact ⟨s, by simp at h1; simp [h1], h2⟩
  | link l k c ih =>
    intro h
    refine ⟨fun hc => ?_, ih ?_⟩
    · obtain ⟨a, b, rfl⟩ := List.append_of_mem hc
      obtain ⟨s, h1, h2⟩ := h (l.parts ++ .comb k.comb :: a.map Part.simple) (b.map Part.simple)
        (by simp [Complex.parts])
      rw [segFrom_append] at h1
      simp only [segFrom, segFrom_simples, List.nil_append] at h1
      exact ⟨s, by simp [h1], h2⟩
    · intro pre post he
      exact h pre (post ++ .comb k.comb :: c.map Part.simple) (by simp [Complex.parts, he])

theorem matches_diff {v w : View} (h : HoverDiff v w) {fp : Prints} {ps : Option Str}
    (hi : ∀ x, v.hovered x ≠ w.hovered x → ¬ Touched fp v x) :
    ∀ (sel : Complex) (x : Nat), sel.Guarded fp → Matches v ps x sel → Matches w ps x sel := by
  have on : ∀ x c, (hoverPart ∈ c → ∃ s ∈ c, Recorded fp s) → OnElement v ps x c → OnElement w ps x c := by
    rintro x c hg ⟨h1, h2⟩
    refine ⟨by rw [h.isElem]; exact h1, fun s hs => ?_⟩
    refine (sat_diff h ps x ?_).mpr (h2 s hs)
    by_cases hx : v.hovered x = w.hovered x
    · exact .inr hx
    · left
      rintro rfl
      obtain ⟨t, ht, hr⟩ := hg hs
      exact (recorded_fails hr (hi x hx)).2 (h2 t ht)
  intro sel
  induction sel with
  | compound c => intro x hg hm; exact on x c hg hm
  | link l k c ih =>
    rintro x ⟨hg1, hg2⟩ ⟨hm, y, hr, hm2⟩
    exact ⟨on x c hg1 hm, y, (related_diff h k x y).mpr hr, ih y hg2 hm2⟩

/-! ## The matcher itself -/

/-- a state from which the loop does not succeed -/
def Dead (v : View) (ps : Option Str) (r : Bool × Cur) : Prop :=
  r.1 = false ∨ ∀ f, r.2.parts.length ≤ f → matchLoop v ps f r.2 = false

/-- a simple selector further left in the compound fails on this node -/
theorem seg_fail {v : View} {ps : Option Str} {x : Nat} {s : Simple} (hs : simpleB v ps x s = false) :
    ∀ (rest : List Part) (f : Nat), s ∈ segFrom [] rest.reverse → rest.length ≤ f →
      matchLoop v ps f ⟨some x, rest⟩ = false := by
  intro rest
  induction rest with
  | nil => intro f h; simp [segFrom] at h
  | cons p rest ih =>
    intro f h hf
    obtain ⟨f, rfl⟩ : ∃ g, f = g + 1 := ⟨f - 1, by simp at hf; omega⟩
    simp only [List.reverse_cons, segFrom_append] at h
    cases p with
    | comb c => simp [segFrom] at h
    | simple t =>
      simp only [matchLoop, matchPart_simple]
      cases v.parent x with
      | none => rfl
      | some p =>
        simp only [Option.isNone_some, Bool.false_eq_true, if_false]
        cases ht : simpleB v ps x t with
        | false => rfl
        | true =>
          simp only [segFrom, List.mem_append, List.mem_singleton] at h
          rcases h with h | h
          · exact ih f h (by simp at hf; omega)
          · subst h; rw [hs] at ht; exact absurd ht (by simp)

theorem tryAll_parts {m : Nat → Cur → Bool × Cur} (hm : ∀ y s, (m y s).2.parts <:+ s.parts) (fo : Bool) :
    ∀ (l : List Nat) (s : Cur), (tryAll m fo l s).2.parts <:+ s.parts := by
  intro l
  induction l with
  | nil => intro s; exact List.suffix_refl _
  | cons y r ih =>
    intro s
    simp only [tryAll]
    have h := hm y (if fo then { s with next := some y } else s)
    have h' : (if fo then { s with next := some y } else s).parts = s.parts := by cases fo <;> rfl
    rw [h'] at h
    rcases hr : m y (if fo then { s with next := some y } else s) with ⟨b, s'⟩
    rw [hr] at h
    cases b with
    | true => exact h
    | false => exact (ih s').trans h

theorem matchPart_parts (v : View) (ps : Option Str) : ∀ (f : Nat) (p : Part) (x : Nat) (s : Cur),
    (matchPart v ps f p x s).2.parts <:+ s.parts := by
  intro f
  induction f with
  | zero => intro p x s; cases p <;> exact List.suffix_refl _
  | succ f ih =>
    intro p x s
    cases p with
    | simple k => exact List.suffix_refl _
    | comb c =>
      simp only [matchPart, matchComb]
      split
      · rename_i last rest _ hs
        exact (tryAll_parts (fun y s => ih last y s) true _ _).trans (by rw [hs]; exact List.suffix_cons _ _)
      · rename_i last rest _ hs
        exact (ih last _ _).trans (by rw [hs]; exact List.suffix_cons _ _)
      · rename_i last rest _ hs
        split
        · exact (ih last _ _).trans (by rw [hs]; exact List.suffix_cons _ _)
        · exact List.suffix_refl _
      · rename_i last rest _ hs
        exact (tryAll_parts (fun y s => ih last y s) false _ _).trans (by rw [hs]; exact List.suffix_cons _ _)
      · rename_i last rest hs
        rw [hs]; exact List.suffix_cons _ _
      · exact List.suffix_refl _

theorem part_diff {v w : View} (h : HoverDiff v w) {fp : Prints} {ps : Option Str}
    (hi : ∀ x, v.hovered x ≠ w.hovered x → ¬ Touched fp v x) {L : List Part} (hc : Covered fp [] L)
    (ht : HoverTame L) : ∀ (f : Nat) (p : Part) (x : Nat) (s : Cur) (post : List Part), s.next = some x →
      L = (p :: s.parts).reverse ++ post →
      matchPart v ps f p x s = matchPart w ps f p x s ∨
        Dead v ps (matchPart v ps f p x s) ∧ Dead w ps (matchPart w ps f p x s) := by
  -- a simple selector
  have simple : ∀ (f : Nat) (k : Simple) (x : Nat) (s : Cur) (post : List Part), s.next = some x →
      L = (.simple k :: s.parts).reverse ++ post →
      matchPart v ps f (.simple k) x s = matchPart w ps f (.simple k) x s ∨
        Dead v ps (matchPart v ps f (.simple k) x s) ∧ Dead w ps (matchPart w ps f (.simple k) x s) := by
    intro f k x s post hn hL
    rw [matchPart_simple, matchPart_simple]
    by_cases hx : v.hovered x = w.hovered x
    · left; rw [simpleB_diff h ps x (.inr hx)]
    · by_cases hk : k = hoverPart
      · right
        subst hk
        obtain ⟨t, h1, h2⟩ := hc s.parts.reverse post (by simpa using hL)
        obtain ⟨n, r⟩ := s
        simp only at hn; subst hn
        refine ⟨.inr fun g hg => seg_fail (recorded_fails h2 (hi x hx)).1 _ g h1 hg,
          .inr fun g hg => seg_fail (recorded_fails h2 ?_).1 _ g h1 hg⟩
        rw [touched_diff h]; exact hi x hx
      · left; rw [simpleB_diff h ps x (.inl hk)]
  intro f
  induction f with
  | zero =>
    intro p x s post hn hL
    cases p with
    | simple k => exact simple 0 k x s post hn hL
    | comb c => left; rfl
  | succ f ih =>
    intro p x s post hn hL
    cases p with
    | simple k => exact simple (f + 1) k x s post hn hL
    | comb c =>
      obtain ⟨n, r⟩ := s
      simp only [matchPart, matchComb, h.parent, h.anc, h.children]
      cases r with
      | nil => left; cases c <;> cases v.parent x <;> rfl
      | cons last rest =>
        have hL' : L = rest.reverse ++ last :: .comb c :: post := by simpa using hL
        have hL2 : L = (last :: rest).reverse ++ (.comb c :: post) := by simpa using hL
        have same : c = .descendant ∨ c = .subsequent → matchPart v ps f last = matchPart w ps f last := by
          intro hcc
          obtain ⟨k, rfl, hk⟩ := ht _ _ _ _ hL' hcc
          funext y s
          rw [matchPart_simple, matchPart_simple, simpleB_diff h ps y (.inl hk)]
        cases hp : v.parent x with
        | none =>
          left
          have hns : nsB v x last = nsB w x last := by
            cases last with
            | comb c => rfl
            | simple k => cases k <;> simp [nsB, h.ns]
          cases c <;> simp [hns]
        | some p =>
          cases c with
          | descendant => left; simp only [same (.inl rfl)]
          | subsequent => left; simp only [same (.inr rfl)]
          | child => exact ih last p ⟨some p, rest⟩ _ rfl hL2
          | next =>
            simp only
            cases before x (v.children p) with
            | none => left; rfl
            | some q => exact ih last q ⟨some q, rest⟩ _ rfl hL2
          | column => left; rfl
          | «namespace» => left; simp only; congr 1; cases last with
            | comb c => rfl
            | simple k => cases k <;> simp [nsB, h.ns]

theorem loop_diff {v w : View} (h : HoverDiff v w) {fp : Prints} {ps : Option Str}
    (hi : ∀ x, v.hovered x ≠ w.hovered x → ¬ Touched fp v x) {L : List Part} (hc : Covered fp [] L)
    (ht : HoverTame L) : ∀ (f : Nat) (s : Cur) (post : List Part), s.parts.length ≤ f →
      L = s.parts.reverse ++ post → matchLoop v ps f s = matchLoop w ps f s := by
  intro f
  induction f with
  | zero => intro s post _ _; rfl
  | succ f ih =>
    rintro ⟨n, r⟩ post hf hL
    cases r with
    | nil => cases n <;> rfl
    | cons p r =>
      cases n with
      | none => rfl
      | some x =>
        simp only [matchLoop, h.parent]
        cases v.parent x with
        | none => rfl
        | some q =>
          simp only [Option.isNone_some, Bool.false_eq_true, if_false]
          have hf' : r.length ≤ f := by simp at hf; omega
          have hv := matchPart_parts v ps f p x ⟨some x, r⟩
          have hw := matchPart_parts w ps f p x ⟨some x, r⟩
          have hvl := hv.length_le
          have hwl := hw.length_le
          rcases part_diff h hi hc ht f p x ⟨some x, r⟩ post rfl hL with he | ⟨hd1, hd2⟩
          · rw [← he]
            obtain ⟨t, hpre⟩ := hv
            rcases hr : matchPart v ps f p x ⟨some x, r⟩ with ⟨b, s'⟩
            rw [hr] at hpre hvl
            cases b with
            | false => rfl
            | true =>
              refine ih s' (t.reverse ++ p :: post) (by simp only at hvl; omega) ?_
              rw [hL]
              simp only at hpre
              simp [← hpre]
          · have e1 : ∀ (u : View) (r' : Bool × Cur), Dead u ps r' → r'.2.parts.length ≤ f → r'.1 = true →
                matchLoop u ps f r'.2 = false := by
              rintro u ⟨b, s'⟩ hd hl hb
              rcases hd with hd | hd
              · rw [hb] at hd; exact absurd hd (by simp)
              · exact hd f hl
            have ev := e1 v _ hd1 (by simp only at hvl; omega)
            have ew := e1 w _ hd2 (by simp only at hwl; omega)
            rcases hr : matchPart v ps f p x ⟨some x, r⟩ with ⟨b, s'⟩
            rcases hr' : matchPart w ps f p x ⟨some x, r⟩ with ⟨b', s''⟩
            rw [hr] at ev
            rw [hr'] at ew
            cases b <;> cases b' <;> simp_all

end Verif.Select
