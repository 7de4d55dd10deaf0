import Verif.Dom.QuerySpec
import Verif.Dom.Props

/-! # C138: queries -/
namespace Verif.Dom
open Verif Verif.Map Relation

theorem named_iff (d : Doc) (x : Nat) (t : Str) : Named d x t ↔ tagName d x = some t := by
  unfold Named tagName dataAt
  cases nodeAt d x with
  | none => simp
  | some n =>
    obtain ⟨p, cs, data⟩ := n
    cases data <;> simp [elemOf]

theorem element_iff (d : Doc) (x : Nat) : isElement d x = true ↔ ∃ t, Named d x t := by
  simp only [named_iff]
  unfold isElement tagName
  cases (nodeAt d x).bind elemOf <;> simp

theorem matches_iff (d : Doc) (x : Nat) (c : Cond) :
    matchesCond d x c = true ↔ (∃ t, Named d x t) ∧ Meets d x c := by
  rw [← element_iff]
  unfold matchesCond
  cases he : isElement d x with
  | false => simp
  | true =>
    simp only [Bool.not_true, Bool.false_eq_true, if_false, true_and]
    cases c with
    | tag t => simp only [decide_eq_true_eq, Meets, named_iff]
    | id v => simp only [Meets, idKey]; exact decide_eq_true_iff
    | cls w =>
      simp only [Meets]
      show (match attr d x "class".toList with
        | some v => (words v).any fun c => decide (c = w)
        | none => false) = true ↔ _
      cases attr d x "class".toList with
      | none => simp
      | some v => simp [← mem_words]
    | hasAttr k => simp only [Meets, Option.isSome_iff_ne_none]
    | childTag t =>
      simp only [Meets, containsChildTag, List.any_eq_true, Bool.and_eq_true, decide_eq_true_eq, named_iff]
      constructor
      · rintro ⟨c, h1, _, h2⟩; exact ⟨c, h1, h2⟩
      · rintro ⟨c, h1, h2⟩
        exact ⟨c, h1, (element_iff d c).2 ⟨t, (named_iff d c t).2 h2⟩, h2⟩
    | parentTag t =>
      simp only [Meets, named_iff]
      cases parent d x with
      | none => simp
      | some p => simp

theorem wanted_iff (d : Doc) (conds : List Cond) (x : Nat) : conds.all (matchesCond d x) = true ↔ Wanted d conds x := by
  simp only [List.all_eq_true, matches_iff, Wanted]

theorem search_all (d : Doc) (conds : List Cond) : ∀ (f : Nat) {st l : List Nat} (found : List Nat), Walks d st l → l.length < f →
    ∃ r, Picks (Wanted d conds) l r ∧ search d conds false f st found = some (found ++ r) := by
  intro f
  induction f with
  | zero => intro st l found _ h; omega
  | succ f ih =>
    intro st l found h hf
    cases h with
    | nil => exact ⟨[], .nil, by simp [search, iterNext]⟩
    | cons hw hr =>
      cases hw with
      | node hc =>
        rename_i c cs l2 l1
        have hw := walks_append hc hr
        simp only [List.cons_append, List.length_cons] at hf
        simp only [search, iterNext, Bool.false_eq_true, if_false]
        by_cases hm : conds.all (matchesCond d c) = true
        · obtain ⟨r, h1, h2⟩ := ih (found ++ [c]) hw (by omega)
          refine ⟨c :: r, .take ((wanted_iff d conds c).1 hm) h1, ?_⟩
          rw [if_pos hm, h2]; simp
        · obtain ⟨r, h1, h2⟩ := ih found hw (by omega)
          refine ⟨r, .skip (fun h => hm ((wanted_iff d conds c).2 h)) h1, ?_⟩
          rw [if_neg hm, h2]

theorem search_first (d : Doc) (conds : List Cond) : ∀ (f : Nat) {st l : List Nat}, Walks d st l → l.length < f →
    ∃ r, Picks (Wanted d conds) l r ∧ search d conds true f st [] = some (r.take 1) := by
  intro f
  induction f with
  | zero => intro st l _ h; omega
  | succ f ih =>
    intro st l h hf
    cases h with
    | nil => exact ⟨[], .nil, by simp [search, iterNext]⟩
    | cons hw hr =>
      cases hw with
      | node hc =>
        rename_i c cs l2 l1
        have hw := walks_append hc hr
        simp only [List.cons_append, List.length_cons] at hf
        obtain ⟨r, h1, h2⟩ := ih hw (by omega)
        simp only [search, iterNext, if_true]
        by_cases hm : conds.all (matchesCond d c) = true
        · refine ⟨c :: r, .take ((wanted_iff d conds c).1 hm) h1, ?_⟩
          rw [if_pos hm]; rfl
        · refine ⟨r, .skip (fun h => hm ((wanted_iff d conds c).2 h)) h1, ?_⟩
          rw [if_neg hm, h2]

theorem picks_unique {P : Nat → Prop} {l r r' : List Nat} (h : Picks P l r) (h' : Picks P l r') : r = r' := by
  induction h generalizing r' with
  | nil => cases h'; rfl
  | take hx _ ih =>
    cases h' with
    | take _ h2 => rw [ih h2]
    | skip hn _ => exact absurd hx hn
  | skip hn _ ih =>
    cases h' with
    | take hx _ => exact absurd hx hn
    | skip _ h2 => exact ih h2

theorem picks_mem {P : Nat → Prop} {l r : List Nat} (h : Picks P l r) (x : Nat) : x ∈ r ↔ x ∈ l ∧ P x := by
  induction h with
  | nil => simp
  | @take y l r hx _ ih =>
    simp only [List.mem_cons, ih]
    constructor
    · rintro (rfl | h)
      · exact ⟨.inl rfl, hx⟩
      · exact ⟨.inr h.1, h.2⟩
    · rintro ⟨rfl | h, hp⟩
      · exact .inl rfl
      · exact .inr ⟨h, hp⟩
  | @skip y l r hn _ ih =>
    simp only [List.mem_cons, ih]
    constructor
    · rintro h; exact ⟨.inr h.1, h.2⟩
    · rintro ⟨rfl | h, hp⟩
      · exact absurd hp hn
      · exact ⟨h, hp⟩

/-- **C138** In every document, a query for all ends, and its answer has exactly the nodes of the document
that meet all its conditions, in document order; a query for the first has the first of these, or none;
a query that does not say which is an error. -/
theorem C138_query {d : Doc} (h : Reach Any d) (conds : List Cond) :
    ∃ l r, Walk d 0 l ∧ Picks (Wanted d conds) l r ∧
      (∀ x, x ∈ r ↔ ReflTransGen (Edge d) 0 x ∧ Wanted d conds x) ∧
      Answers d .findAll conds (some r) ∧ Answers d .findFirst conds (some (r.take 1)) ∧
      Answers d .uninitialized conds none := by
  obtain ⟨l, hw, hm⟩ := walk_total (noCycle_reach h) 0
  have hws := walk_to_walks hw
  obtain ⟨r, hr, _⟩ := search_all d conds (l.length + 1) [] hws (by omega)
  refine ⟨l, r, hw, hr, ?_, ⟨l.length + 1, fun f hf => ?_⟩, ⟨l.length + 1, fun f hf => ?_⟩, 0, fun f _ => rfl⟩
  · intro x; rw [picks_mem hr, hm]
  · obtain ⟨r', hr', hs⟩ := search_all d conds f [] hws (by omega)
    rw [picks_unique hr hr']
    simp only [query, hs, List.nil_append, Option.map_some]
  · obtain ⟨r', hr', hs⟩ := search_first d conds f hws (by omega)
    rw [picks_unique hr hr']
    simp only [query, hs, Option.map_some]

/-- a document with two elements of a class, and a query that wants one of them -/
def queryOps : List Op :=
  [.createElement "div".toList [] [("class".toList, "a b".toList)],
   .createElement "p".toList [] [("class".toList, "b".toList), ("id".toList, "x".toList)],
   .createText "b".toList, .attach 1 0 none, .attach 2 1 none, .attach 3 2 none]

example : Reach Any (after queryOps) ∧
    query (after queryOps) .findAll [.cls "b".toList] 10 = some (some [1, 2]) ∧
    query (after queryOps) .findFirst [.cls "b".toList] 10 = some (some [1]) ∧
    query (after queryOps) .findAll [.cls "b".toList, .parentTag "div".toList, .id "x".toList] 10 = some (some [2]) ∧
    query (after queryOps) .findAll [.childTag "p".toList, .hasAttr "class".toList] 10 = some (some [1]) := by
  refine ⟨?_, by decide +kernel, by decide +kernel, by decide +kernel, by decide +kernel⟩
  cases hr : run Doc.new queryOps with
  | none => exact absurd hr (by decide +kernel)
  | some r => exact reach_any hr

end Verif.Dom
