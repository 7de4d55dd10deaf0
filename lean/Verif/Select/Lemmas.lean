import Verif.Select.Spec
import Mathlib.Tactic.Common
import Mathlib.Data.List.Nodup

/-!
# Lemmas for C43
-/
namespace Verif.Select
open Verif

theorem matchPart_simple (v : View) (ps : Option Str) (f : Nat) (k : Simple) (x : Nat) (s : Cur) :
    matchPart v ps f (.simple k) x s = (simpleB v ps x k, s) := by cases f <;> rfl

/-- the loop of the descendant combinator over a simple selector -/
theorem tryAll_follow {m : Nat → Cur → Bool × Cur} {g : Nat → Bool} (hm : ∀ y s, m y s = (g y, s)) :
    ∀ (l : List Nat) (s : Cur),
      (∃ a y b, l = a ++ y :: b ∧ g y = true ∧ (∀ z ∈ a, g z = false) ∧
        tryAll m true l s = (true, ⟨some y, s.parts⟩)) ∨
      ((∀ y ∈ l, g y = false) ∧ (tryAll m true l s).1 = false) := by
  intro l
  induction l with
  | nil => intro s; right; exact ⟨by simp, rfl⟩
  | cons y r ih =>
    intro s
    cases hg : g y with
    | true =>
      left
      refine ⟨[], y, r, rfl, hg, by simp, ?_⟩
      simp only [tryAll, hm, hg, if_true]
    | false =>
      rcases ih { s with next := some y } with ⟨a, z, b, h1, h2, h3, h4⟩ | ⟨h1, h2⟩
      · left
        refine ⟨y :: a, z, b, by rw [h1]; rfl, h2, ?_, ?_⟩
        · intro w hw
          rcases List.mem_cons.mp hw with rfl | hw
          · exact hg
          · exact h3 w hw
        · simp only [tryAll, hm, hg, if_true]; exact h4
      · right
        refine ⟨?_, ?_⟩
        · intro w hw
          rcases List.mem_cons.mp hw with rfl | hw
          · exact hg
          · exact h1 w hw
        · simp only [tryAll, hm, hg, if_true]; exact h2

/-- the loop of the `~` combinator over a simple selector -/
theorem tryAll_stay {m : Nat → Cur → Bool × Cur} {g : Nat → Bool} (hm : ∀ y s, m y s = (g y, s)) :
    ∀ (l : List Nat) (s : Cur),
      ((∃ y ∈ l, g y = true) ∧ tryAll m false l s = (true, s)) ∨
      ((∀ y ∈ l, g y = false) ∧ (tryAll m false l s).1 = false) := by
  intro l
  induction l with
  | nil => intro s; right; exact ⟨by simp, rfl⟩
  | cons y r ih =>
    intro s
    cases hg : g y with
    | true =>
      left
      refine ⟨⟨y, by simp, hg⟩, ?_⟩
      simp [tryAll, hm, hg]
    | false =>
      rcases ih s with ⟨⟨z, h1, h2⟩, h4⟩ | ⟨h1, h2⟩
      · left
        refine ⟨⟨z, by simp [h1], h2⟩, ?_⟩
        simp [tryAll, hm, hg, h4]
      · right
        refine ⟨?_, ?_⟩
        · intro w hw
          rcases List.mem_cons.mp hw with rfl | hw
          · exact hg
          · exact h1 w hw
        · simp [tryAll, hm, hg, h2]

/-- the parts of a compound, one after the other, on one node -/
theorem loop_simples (v : View) (ps : Option Str) (x : Nat) (rest : List Part) :
    ∀ (c : List Simple) (f : Nat), c.length + rest.length ≤ f →
      (matchLoop v ps f ⟨some x, c.map .simple ++ rest⟩ = true ↔
        (c ≠ [] → (v.parent x).isSome = true) ∧ (∀ s ∈ c, simpleB v ps x s = true) ∧
          matchLoop v ps (f - c.length) ⟨some x, rest⟩ = true) := by
  intro c
  induction c with
  | nil => intro f _; simp
  | cons s c ih =>
    intro f hf
    obtain ⟨f, rfl⟩ : ∃ g, f = g + 1 := ⟨f - 1, by simp at hf; omega⟩
    have hf' : c.length + rest.length ≤ f := by simp at hf; omega
    simp only [List.map_cons, List.cons_append, matchLoop, matchPart_simple]
    cases hp : v.parent x with
    | none => simp
    | some p =>
      cases hs : simpleB v ps x s with
      | false => simp [hs]
      | true =>
        simp only [Option.isNone_some, Bool.false_eq_true, if_false]
        rw [ih f hf']
        simp [hs, hp]

/-- the parts of a selector, last first, after its rightmost compound -/
def Complex.tail : Complex → List Part
  | .compound _ => []
  | .link l k _ => .comb k.comb :: l.parts.reverse

theorem Complex.parts_reverse (s : Complex) :
    s.parts.reverse = s.last.reverse.map Part.simple ++ s.tail := by
  cases s with
  | compound c => simp [Complex.parts, Complex.last, Complex.tail]
  | link l k c => simp [Complex.parts, Complex.last, Complex.tail]

theorem Complex.parts_length (s : Complex) : s.parts.length = s.last.length + s.tail.length := by
  have := congrArg List.length s.parts_reverse
  simpa using this

/-- what is left to do at a node whose rightmost compound has matched -/
def Done (v : View) (ps : Option Str) (x : Nat) (s : Complex) : Prop :=
  v.isElem x = true ∧ (∀ k ∈ s.last, simpleB v ps x k = true) ∧
    ∀ f, s.tail.length ≤ f → matchLoop v ps f ⟨some x, s.tail⟩ = true

/-- the same for one number of remaining parts -/
def DoneAt (v : View) (ps : Option Str) (f x : Nat) (s : Complex) : Prop :=
  v.isElem x = true ∧ (∀ k ∈ s.last, simpleB v ps x k = true) ∧ matchLoop v ps f ⟨some x, s.tail⟩ = true

/-- one step of the loop at a combinator -/
theorem loop_comb {v : View} {ps : Option Str} {f x p : Nat} {k : Comb} {rest : List Part}
    (hp : v.parent x = some p) :
    matchLoop v ps (f + 1) ⟨some x, .comb k :: rest⟩ =
      ((matchPart v ps f (.comb k) x ⟨some x, rest⟩).1 &&
        matchLoop v ps f (matchPart v ps f (.comb k) x ⟨some x, rest⟩).2) := by
  simp only [matchLoop, hp, Option.isNone_some, Bool.false_eq_true, if_false]
  rcases h : matchPart v ps f (.comb k) x ⟨some x, rest⟩ with ⟨b, s'⟩
  cases b <;> simp

theorem loop_comb_none {v : View} {ps : Option Str} {f x : Nat} {k : Comb} {rest : List Part}
    (hp : v.parent x = none) : matchLoop v ps (f + 1) ⟨some x, .comb k :: rest⟩ = false := by
  simp [matchLoop, hp]

theorem mem_before {x y : Nat} : ∀ {l : List Nat}, before x l = some y → ∃ a b, l = a ++ y :: x :: b
  | [], h => by simp [before] at h
  | [c], h => by simp [before] at h
  | c :: d :: r, h => by
    unfold before at h
    split at h
    · exact absurd h (by simp)
    · split at h
      · rename_i _ h2
        subst h2
        exact ⟨[], r, by simp at h; simp [h]⟩
      · obtain ⟨a, b, hl⟩ := mem_before h
        exact ⟨c :: a, b, by rw [hl]; rfl⟩

theorem before_of {x y : Nat} : ∀ (a b : List Nat), (a ++ y :: x :: b).Nodup →
    before x (a ++ y :: x :: b) = some y
  | [], b, h => by
    have : y ≠ x := by
      intro h2; subst h2; simp at h
    simp [before, this]
  | [c], b, h => by
    simp only [List.cons_append, List.nil_append, before]
    simp at h
    have h1 : ¬ c = x := by tauto
    have h2 : ¬ y = x := by tauto
    simp [h1, h2]
  | c :: d :: a, b, h => by
    have ih := before_of (d :: a) b (List.nodup_cons.mp h).2
    simp only [List.cons_append, before] at ih ⊢
    have h1 : ¬ c = x := by
      intro h2; subst h2; simp at h
    have h2 : ¬ d = x := by
      intro h2; subst h2; simp at h
    simp only [h1, h2, if_false]
    exact ih

theorem mem_upTo {x y : Nat} {l : List Nat} (h : y ∈ upTo x l) (hx : x ∈ l) :
    ∃ a t b, l = a ++ y :: t ++ x :: b := by
  induction l with
  | nil => simp at hx
  | cons c r ih =>
    unfold upTo at h
    rw [List.takeWhile_cons] at h
    split at h
    · rename_i hc
      have hc : c ≠ x := by simpa using hc
      have hx' : x ∈ r := by
        rcases List.mem_cons.mp hx with h | h
        · exact absurd h.symm hc
        · exact h
      rcases List.mem_cons.mp h with rfl | h
      · obtain ⟨t, b, hr⟩ := List.append_of_mem hx'
        exact ⟨[], t, b, by rw [hr]; simp⟩
      · obtain ⟨a, t, b, hr⟩ := ih h hx'
        exact ⟨c :: a, t, b, by rw [hr]; simp⟩
    · simp at h

theorem upTo_of {x y : Nat} {a t b : List Nat} (hn : (a ++ y :: t ++ x :: b).Nodup) :
    y ∈ upTo x (a ++ y :: t ++ x :: b) := by
  have h : ∀ z ∈ a ++ y :: t, z ≠ x := by
    intro z hz hzx
    subst hzx
    rw [List.nodup_append] at hn
    exact hn.2.2 z hz z (by simp) rfl
  unfold upTo
  have : (a ++ y :: t ++ x :: b).takeWhile (fun c => decide (c ≠ x)) = a ++ y :: t := by
    rw [List.takeWhile_append_of_pos]
    · simp
    · intro z hz; simp [h z hz]
  rw [this]; simp

/-- following parents gives exactly the nodes above -/
theorem mem_anc {v : View} (hv : v.Ok) : ∀ {n x y : Nat}, (v.anc x).length = n →
    (y ∈ v.anc x ↔ Relation.TransGen (Parent v) x y) := by
  intro n
  induction n with
  | zero =>
    intro x y h
    have h0 := List.length_eq_zero_iff.mp h
    constructor
    · intro h; rw [h0] at h; exact absurd h (by simp)
    · intro ht
      obtain ⟨z, hz, _⟩ := Relation.TransGen.head'_iff.mp ht
      have := hv.anc x
      rw [show v.parent x = some z from hz, h0] at this
      exact absurd this (by simp)
  | succ n ih =>
    intro x y h
    have ha := hv.anc x
    cases hp : v.parent x with
    | none => rw [hp] at ha; rw [ha] at h; simp at h
    | some p =>
      rw [hp] at ha
      simp only [Option.elim] at ha
      have hn : (v.anc p).length = n := by rw [ha] at h; simpa using h
      rw [ha, List.mem_cons, ih hn]
      constructor
      · rintro (rfl | h)
        · exact .single hp
        · exact .head hp h
      · intro ht
        obtain ⟨z, hz, hr⟩ := Relation.TransGen.head'_iff.mp ht
        have : z = p := by
          have hz : v.parent x = some z := hz
          rw [hp] at hz; exact (Option.some.inj hz).symm
        subst this
        rcases Relation.reflTransGen_iff_eq_or_transGen.mp hr with h | h
        · exact .inl h
        · exact .inr h

theorem mem_anc_iff {v : View} (hv : v.Ok) {x y : Nat} :
    y ∈ v.anc x ↔ Relation.TransGen (Parent v) x y := mem_anc hv rfl

theorem anc_cons {v : View} (hv : v.Ok) {x p : Nat} (hp : v.parent x = some p) : v.anc x = p :: v.anc p := by
  have := hv.anc x; rw [hp] at this; exact this

/-- an earlier node on the way up is below a later one -/
theorem anc_order {v : View} (hv : v.Ok) : ∀ {a : List Nat} {x y z : Nat} {b : List Nat},
    v.anc x = a ++ y :: b → z ∈ b → Relation.TransGen (Parent v) y z := by
  intro a
  induction a with
  | nil =>
    intro x y z b h hz
    cases hp : v.parent x with
    | none => have := hv.anc x; rw [hp] at this; rw [this] at h; exact absurd h (by simp)
    | some p =>
      rw [anc_cons hv hp] at h
      injection h with h1 h2
      subst h1
      exact (mem_anc_iff hv).mp (h2 ▸ hz)
  | cons c a ih =>
    intro x y z b h hz
    cases hp : v.parent x with
    | none => have := hv.anc x; rw [hp] at this; rw [this] at h; exact absurd h (by simp)
    | some p =>
      rw [anc_cons hv hp] at h
      injection h with h1 h2
      exact ih h2 hz

end Verif.Select
