import Verif.Select.Lemmas2

/-!
# Lemmas for C43: the matcher against the CSS definition
-/
namespace Verif.Select
open Verif

/-- taking apart the rightmost compound of a selector that is pinned -/
theorem last_split {l : Complex} (h : ∃ s ∈ l.last, Pins s = true) :
    ∃ s0 c, l.last.reverse = s0 :: c ∧ l.parts.reverse = .simple s0 :: (c.map Part.simple ++ l.tail) ∧
      l.parts.length = 1 + c.length + l.tail.length := by
  obtain ⟨s, hs, -⟩ := h
  cases hr : l.last.reverse with
  | nil => have : s ∈ l.last.reverse := by simpa using hs
           rw [hr] at this; exact absurd this (by simp)
  | cons s0 c =>
    refine ⟨s0, c, rfl, by rw [l.parts_reverse, hr]; rfl, ?_⟩
    rw [l.parts_length]
    have := congrArg List.length hr
    simp at this
    omega

theorem mem_last {l : Complex} {s0 : Simple} {c : List Simple} (h : l.last.reverse = s0 :: c) (k : Simple) :
    k ∈ l.last ↔ k = s0 ∨ k ∈ c := by
  rw [← List.mem_reverse, h, List.mem_cons]

/-- the rest of a compound, once its last simple selector has matched on `y` -/
theorem after_first {v : View} (hv : v.Ok) {ps : Option Str} {l : Complex} {s0 : Simple} {c : List Simple}
    (hl : l.last.reverse = s0 :: c) (hpin : ∃ s ∈ l.last, Pins s = true) {f y : Nat}
    (hf : c.length + l.tail.length ≤ f) (h0 : simpleB v ps y s0 = true)
    (h : matchLoop v ps f ⟨some y, c.map Part.simple ++ l.tail⟩ = true) :
    DoneAt v ps (f - c.length) y l := by
  obtain ⟨_, h2, h3⟩ := (loop_simples v ps y l.tail c f hf).mp h
  have hall : ∀ k ∈ l.last, simpleB v ps y k = true := by
    intro k hk
    rcases (mem_last hl k).mp hk with rfl | hk
    · exact h0
    · exact h2 k hk
  obtain ⟨s, hs, hp⟩ := hpin
  exact ⟨pins_elem hv hp (hall s hs), hall, h3⟩

/-- with the same parent, a selector whose next combinator goes up goes on alike -/
theorem loop_shift {v : View} {ps : Option Str} {l : Complex} (hg : l.goesUp) {x y : Nat}
    (hp : v.parent x = v.parent y) (f : Nat) :
    matchLoop v ps f ⟨some x, l.tail⟩ = matchLoop v ps f ⟨some y, l.tail⟩ := by
  cases l with
  | compound c => cases f <;> simp [matchLoop, Complex.tail]
  | link l k c =>
    cases f with
    | zero => rfl
    | succ f =>
      simp only [Complex.tail]
      cases hx : v.parent x with
      | none => rw [loop_comb_none hx, loop_comb_none (by rw [← hp, hx])]
      | some p =>
        have hy : v.parent y = some p := by rw [← hp, hx]
        rw [loop_comb hx, loop_comb hy]
        cases f with
        | zero => rfl
        | succ f =>
          rcases hg with rfl | rfl
          · simp only [Rel.comb, matchPart, matchComb, hx, hy]
            cases l.parts.reverse with
            | nil => rfl
            | cons a r => simp only [tryAll, if_true]
          · simp only [Rel.comb, matchPart, matchComb, hx, hy]
            cases l.parts.reverse with
            | nil => rfl
            | cons a r => rfl

theorem sound_aux {v : View} (hv : v.Ok) {ps : Option Str} :
    ∀ (sel : Complex) (f x : Nat), sel.tail.length ≤ f → sel.Fine v → sel.Pinned → sel.SibTame →
      DoneAt v ps f x sel → Matches v ps x sel := by
  intro sel
  induction sel with
  | compound c =>
    rintro f x - hf - - ⟨h1, h2, -⟩
    exact ⟨h1, fun s hs => (simple_exact hv h1 (hf s hs)).mp (h2 s hs)⟩
  | link l k c ih =>
    rintro f x hlen ⟨hf1, hf2⟩ ⟨hp1, hp2⟩ ⟨hs1, hs2⟩ ⟨h1, h2, h3⟩
    refine ⟨⟨h1, fun s hs => (simple_exact hv h1 (hf1 s hs)).mp (h2 s hs)⟩, ?_⟩
    obtain ⟨s0, c', hl, hrev, hcount⟩ := last_split hp1
    simp only [Complex.tail, List.length_cons, List.length_reverse] at hlen
    obtain ⟨f, rfl⟩ : ∃ g, f = g + 1 + 1 := ⟨f - 2, by omega⟩
    simp only [Complex.tail] at h3
    cases hp : v.parent x with
    | none => rw [loop_comb_none hp] at h3; exact absurd h3 (by simp)
    | some p =>
      rw [loop_comb hp, hrev, Bool.and_eq_true] at h3
      obtain ⟨h4, h5⟩ := h3
      have hbound : c'.length + l.tail.length ≤ f + 1 := by omega
      have hbound' : l.tail.length ≤ f + 1 - c'.length := by omega
      have hrec : ∀ (y : Nat) (s : Cur), matchPart v ps f (.simple s0) y s = (simpleB v ps y s0, s) :=
        fun y s => matchPart_simple v ps f s0 y s
      cases k with
      | descendant =>
        simp only [Rel.comb, matchPart, matchComb, hp] at h4 h5
        rcases tryAll_follow hrec (p :: v.anc p) ⟨some x, c'.map Part.simple ++ l.tail⟩ with
          ⟨a, y, b, g1, g2, g3, g4⟩ | ⟨-, g2⟩
        · rw [g4] at h5
          refine ⟨y, ?_, ih _ y hbound' hf2 hp2 hs1 (after_first hv hl hp1 hbound g2 h5)⟩
          refine (mem_anc_iff hv).mp ?_
          rw [anc_cons hv hp, g1]; simp
        · rw [g2] at h4; exact absurd h4 (by simp)
      | child =>
        simp only [Rel.comb, matchPart, matchComb, hp, hrec] at h4 h5
        exact ⟨p, hp, ih _ p hbound' hf2 hp2 hs1 (after_first hv hl hp1 hbound h4 h5)⟩
      | next =>
        simp only [Rel.comb, matchPart, matchComb, hp] at h4 h5
        cases hb : before x (v.children p) with
        | none => rw [hb] at h4; exact absurd h4 (by simp)
        | some y =>
          simp only [hb, hrec] at h4 h5
          refine ⟨y, ⟨[], ?_, by simp⟩, ih _ y hbound' hf2 hp2 hs1 (after_first hv hl hp1 hbound h4 h5)⟩
          obtain ⟨a, b, hc⟩ := mem_before hb
          exact ⟨p, a, b, hp, by simp [hc]⟩
      | subsequent =>
        simp only [Rel.comb, matchPart, matchComb, hp] at h4 h5
        obtain ⟨hlen1, hup⟩ := hs2 rfl
        have hc' : c' = [] := by
          have := congrArg List.length hl
          rw [List.length_reverse, hlen1, List.length_cons] at this
          exact List.length_eq_zero_iff.mp (by omega)
        subst hc'
        rcases tryAll_stay hrec (upTo x (v.children p)) ⟨some x, [] ++ l.tail⟩ with
          ⟨⟨y, g1, g2⟩, g4⟩ | ⟨-, g2⟩
        · simp only [List.map_nil] at h4 h5
          rw [g4] at h5
          have hyc : y ∈ v.children p := (List.takeWhile_subset _) g1
          have hyp := hv.child p y hyc
          simp only [List.nil_append] at h5
          rw [loop_shift hup (show v.parent x = v.parent y by rw [hp, hyp])] at h5
          have hxc : x ∈ v.children p := by
            rcases hv.listed p x hp with h | h
            · exact h
            · rw [h] at hyc; exact absurd hyc (by simp)
          obtain ⟨a, t, b, hc⟩ := mem_upTo g1 hxc
          exact ⟨y, ⟨t, p, a, b, hp, hc⟩, ih _ y hbound' hf2 hp2 hs1
            (after_first hv hl hp1 (by simpa using hbound) g2 (by simpa using h5))⟩
        · simp only [List.map_nil] at h4
          rw [g2] at h4; exact absurd h4 (by simp)

/-- with only descendant combinators to the left, a match higher up is also one lower down -/
theorem desc_down {v : View} {ps : Option Str} {l : Complex} (hd : l.AllDesc) {y z : Nat}
    (hyz : Relation.TransGen (Parent v) y z) (hm : Matches v ps z l) (hy : OnElement v ps y l.last) :
    Matches v ps y l := by
  cases l with
  | compound c => exact hy
  | link l k c =>
    obtain ⟨rfl, -, -⟩ := hd
    obtain ⟨-, w, hw, hm⟩ := hm
    exact ⟨hy, w, Relation.TransGen.trans hyz hw, hm⟩

theorem matches_last {v : View} {ps : Option Str} {l : Complex} {x : Nat} (h : Matches v ps x l) :
    OnElement v ps x l.last := by
  cases l with
  | compound c => exact h
  | link l k c => exact h.1

theorem rooted_up {v : View} {x y : Nat} (h : Rooted v x) (hy : Relation.TransGen (Parent v) x y) : Rooted v y :=
  fun z hz => h z (hy.to_reflTransGen.trans hz)

theorem rooted_sibling {v : View} {x y p : Nat} (h : Rooted v x) (hx : v.parent x = some p)
    (hy : v.parent y = some p) : Rooted v y := by
  intro z hz he
  rcases Relation.ReflTransGen.cases_head hz with rfl | ⟨q, hq, hz⟩
  · rw [hy]; rfl
  · have : v.parent y = some q := hq
    rw [hy] at this
    cases this
    exact h z (Relation.ReflTransGen.head hx hz) he

theorem complete_aux {v : View} (hv : v.Ok) {ps : Option Str} :
    ∀ (sel : Complex) (x : Nat), sel.Fine v → sel.Pinned → sel.SibTame → sel.DescTame v → Rooted v x →
      Matches v ps x sel → ∀ f, sel.tail.length ≤ f → DoneAt v ps f x sel := by
  intro sel
  induction sel with
  | compound c =>
    rintro x hf - - - - ⟨h1, h2⟩ f -
    refine ⟨h1, fun s hs => (simple_exact hv h1 (hf s hs)).mpr (h2 s hs), ?_⟩
    cases f <;> simp [matchLoop, Complex.tail]
  | link l k c ih =>
    rintro x ⟨hf1, hf2⟩ ⟨hp1, hp2⟩ ⟨hs1, hs2⟩ ⟨hd1, hd2, hd3⟩ hr ⟨⟨h1, h2⟩, y, hrel, hm⟩ f hlen
    refine ⟨h1, fun s hs => (simple_exact hv h1 (hf1 s hs)).mpr (h2 s hs), ?_⟩
    obtain ⟨s0, c', hl, hrev, hcount⟩ := last_split hp1
    simp only [Complex.tail, List.length_cons, List.length_reverse] at hlen
    obtain ⟨f, rfl⟩ : ∃ g, f = g + 1 + 1 := ⟨f - 2, by omega⟩
    simp only [Complex.tail]
    have hbound : c'.length + l.tail.length ≤ f + 1 := by omega
    have hbound' : l.tail.length ≤ f + 1 - c'.length := by omega
    have hrec : ∀ (y : Nat) (s : Cur), matchPart v ps f (.simple s0) y s = (simpleB v ps y s0, s) :=
      fun y s => matchPart_simple v ps f s0 y s
    -- going on at a node that matches what is left
    have goOn : ∀ z, Rooted v z → Matches v ps z l →
        simpleB v ps z s0 = true ∧ matchLoop v ps (f + 1) ⟨some z, c'.map Part.simple ++ l.tail⟩ = true := by
      intro z hz hmz
      obtain ⟨g1, g2, g3⟩ := ih z hf2 hp2 hs1 hd1 hz hmz _ hbound'
      refine ⟨g2 s0 ((mem_last hl s0).mpr (.inl rfl)), ?_⟩
      exact (loop_simples v ps z l.tail c' (f + 1) hbound).mpr
        ⟨fun _ => hz z .refl g1, fun s hs => g2 s ((mem_last hl s).mpr (.inr hs)), g3⟩
    obtain ⟨p, hp⟩ := Option.isSome_iff_exists.mp (hr x .refl h1)
    rw [loop_comb hp, hrev, Bool.and_eq_true]
    cases k with
    | descendant =>
      simp only [Rel.comb, matchPart, matchComb, hp]
      obtain ⟨hlen1, hall⟩ := hd2 rfl
      have hy : y ∈ p :: v.anc p := by
        rw [← anc_cons hv hp]; exact (mem_anc_iff hv).mpr hrel
      rcases tryAll_follow hrec (p :: v.anc p) ⟨some x, c'.map Part.simple ++ l.tail⟩ with
        ⟨a, z, b, g1, g2, g3, g4⟩ | ⟨g1, -⟩
      · rw [g4]
        refine ⟨rfl, ?_⟩
        have hzx : Relation.TransGen (Parent v) x z := by
          refine (mem_anc_iff hv).mp ?_
          rw [anc_cons hv hp, g1]; simp
        have hc' : c' = [] := by
          have := congrArg List.length hl
          rw [List.length_reverse, hlen1, List.length_cons] at this
          exact List.length_eq_zero_iff.mp (by omega)
        have hze : v.isElem z = true := by
          obtain ⟨s, hs, hpin⟩ := hp1
          rcases (mem_last hl s).mp hs with rfl | h
          · exact pins_elem hv hpin g2
          · rw [hc'] at h; exact absurd h (by simp)
        have hplain : Plain v s0 := by
          have hmem := (mem_last hl s0).mpr (.inl rfl)
          cases l with
          | compound c => exact hf2 s0 hmem
          | link l k c => exact hf2.1 s0 hmem
        have hzl : OnElement v ps z l.last := by
          refine ⟨hze, fun s hs => ?_⟩
          rcases (mem_last hl s).mp hs with rfl | h
          · exact (simple_exact hv hze hplain).mp g2
          · rw [hc'] at h; exact absurd h (by simp)
        have hmz : Matches v ps z l := by
          rw [g1] at hy
          rcases List.mem_append.mp hy with h | h
          · obtain ⟨q1, q2⟩ := goOn y (rooted_up hr hrel) hm
            rw [g3 y h] at q1; exact absurd q1 (by simp)
          · rcases List.mem_cons.mp h with rfl | h
            · exact hm
            · exact desc_down hall (anc_order hv (by rw [anc_cons hv hp, g1]) h) hm hzl
        exact (goOn z (rooted_up hr hzx) hmz).2
      · obtain ⟨q1, -⟩ := goOn y (rooted_up hr hrel) hm
        rw [g1 y hy] at q1; exact absurd q1 (by simp)
    | child =>
      have hy : v.parent x = some y := hrel
      rw [hp] at hy; cases hy
      simp only [Rel.comb, matchPart, matchComb, hp, hrec]
      exact goOn y (rooted_up hr (.single hp)) hm
    | next =>
      obtain ⟨t, ⟨q, a, b, hq, hc⟩, ht⟩ := hrel
      rw [hp] at hq; cases hq
      have ht0 : t = [] := by
        cases t with
        | nil => rfl
        | cons z t =>
          have := hd3 rfl p z (by rw [hc]; simp)
          rw [ht z (by simp)] at this; exact absurd this (by simp)
      subst ht0
      have hc : v.children p = a ++ y :: x :: b := by simpa using hc
      have hn := hv.nodup p
      rw [hc] at hn
      have hb := before_of a b hn
      rw [← hc] at hb
      simp only [Rel.comb, matchPart, matchComb, hp, hb, hrec]
      exact goOn y (rooted_sibling hr hp (hv.child p y (by rw [hc]; simp))) hm
    | subsequent =>
      obtain ⟨hlen1, hup⟩ := hs2 rfl
      have hc' : c' = [] := by
        have := congrArg List.length hl
        rw [List.length_reverse, hlen1, List.length_cons] at this
        exact List.length_eq_zero_iff.mp (by omega)
      subst hc'
      obtain ⟨t, q, a, b, hq, hc⟩ := hrel
      rw [hp] at hq; cases hq
      have hyp := hv.child p y (by rw [hc]; simp)
      have hmem : y ∈ upTo x (v.children p) := by
        have hn := hv.nodup p
        rw [hc] at hn ⊢
        exact upTo_of hn
      obtain ⟨q1, q2⟩ := goOn y (rooted_sibling hr hp hyp) hm
      simp only [Rel.comb, matchPart, matchComb, hp]
      rcases tryAll_stay hrec (upTo x (v.children p)) ⟨some x, List.map Part.simple [] ++ l.tail⟩ with
        ⟨-, g4⟩ | ⟨g1, -⟩
      · rw [g4]
        refine ⟨rfl, ?_⟩
        simp only [List.map_nil, List.nil_append] at q2 ⊢
        rw [loop_shift hup (show v.parent x = v.parent y by rw [hp, hyp])]
        exact q2
      · rw [g1 y hmem] at q1; exact absurd q1 (by simp)

/-- the loop at the start -/
theorem matchParts_iff {v : View} {ps : Option Str} {x : Nat} {sel : Complex} (hx : v.isElem x = true) :
    matchParts v ps x sel.parts = true ↔
      (sel.last ≠ [] → (v.parent x).isSome = true) ∧ DoneAt v ps sel.tail.length x sel := by
  unfold matchParts
  rw [sel.parts_reverse, loop_simples v ps x sel.tail sel.last.reverse sel.parts.length
    (by rw [sel.parts_length]; simp)]
  have : sel.parts.length - sel.last.reverse.length = sel.tail.length := by rw [sel.parts_length]; simp
  rw [this]
  simp only [DoneAt, hx, true_and, List.mem_reverse, ne_eq, List.reverse_eq_nil_iff]

end Verif.Select
