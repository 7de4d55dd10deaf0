import Mathlib.Data.List.Nodup
import Mathlib.Data.List.Basic
import Mathlib.Tactic.Linarith
import Verif.Layers.Spec

/-! # Lemmas on layers: what a traversal adds -/
namespace Verif.Layers
open Verif.Map

/-! ## The traversal as a function of lists of layers -/

/-- A layer with its number. -/
def Desc.layer (i : Nat) (d : Desc) : Layer := ⟨i, d.order, d.opacity, d.anchor, d.elements⟩

/-- A layer with more elements at its end. -/
def Desc.more (xs : List Nat) (d : Desc) : Desc := { d with elements := d.elements ++ xs }

theorem more_nil : Desc.more [] = id := by
  funext d; simp [Desc.more]

theorem more_more (xs ys : List Nat) (d : Desc) : Desc.more ys (Desc.more xs d) = Desc.more (xs ++ ys) d := by
  simp [Desc.more]

/-- The state is the list of layers `ls`, in order of creation. -/
structure Rep (s : State) (ls : List Desc) : Prop where
  next : s.next = ls.length
  ids : s.ids = List.range ls.length
  look : ∀ i, look s.layers i = (ls[i]?).map (Desc.layer i)

theorem Rep.new {s : State} {ls : List Desc} (h : Rep s ls) (o : Int) (q : ℚ) (a : Anchor) :
    Rep (newPromotedLayer s o q a).1 (ls ++ [⟨o, q, a, []⟩]) ∧ (newPromotedLayer s o q a).2 = ls.length := by
  refine ⟨⟨by simp [newPromotedLayer, h.next], by simp [newPromotedLayer, h.ids, h.next, List.range_succ], ?_⟩, h.next⟩
  intro i
  simp only [newPromotedLayer, look_put, h.next, h.look]
  by_cases hi : ls.length = i
  · subst hi; simp [Desc.layer]
  · rw [if_neg hi]
    rcases Nat.lt_or_ge i ls.length with h1 | h1
    · rw [List.getElem?_append_left h1]
    · rw [List.getElem?_eq_none h1, List.getElem?_eq_none (by simp; omega)]

theorem Rep.add {s : State} {ls : List Desc} (h : Rep s ls) (l x : Nat) :
    Rep (addToLayer s l x) (ls.modify l (Desc.more [x])) := by
  refine ⟨by simp [addToLayer, h.next], by simp [addToLayer, h.ids], ?_⟩
  intro i
  simp only [addToLayer, look_upd, h.look, List.getElem?_modify]
  by_cases hi : l = i
  · subst hi
    simp only [if_pos rfl, Option.map_map]
    cases ls[l]? <;> rfl
  · simp [hi]

theorem Rep.group {s : State} {ls : List Desc} (h : Rep s ls) (d : Nat) : Rep (addGrouped s d) ls :=
  ⟨h.next, h.ids, h.look⟩

theorem Rep.groupIf {s : State} {ls : List Desc} (h : Rep s ls) (b : Bool) (d : Nat) :
    Rep (if b = true then addGrouped s d else s) ls := by
  split
  · exact h.group d
  · exact h

mutual
/-- The elements of a tree that stay in the layer the traversal is in. -/
def stay (g : Bool) : LTree → List Nat
  | .missing => []
  | .node e cs =>
    if promoted e g then []
    else if e.isImg && !g then stayAll g cs
    else e.id :: stayAll g cs
/-- The same for siblings. -/
def stayAll (g : Bool) : List LTree → List Nat
  | [] => []
  | t :: r => stay g t ++ stayAll g r
end

mutual
/-- The layers started in a tree. -/
def fresh (g : Bool) (o : Int) : LTree → List Desc
  | .missing => []
  | .node e cs =>
    if promoted e g then
      ⟨orderOf e o, clampOpacity e, anchorOf e, e.id :: stayAll true cs⟩ :: freshAll true (orderOf e o) cs
    else if e.isImg && !g then ⟨orderOf e o, 1, .scroll, [e.id]⟩ :: freshAll g (orderOf e o) cs
    else freshAll g (orderOf e o) cs
/-- The same for siblings. -/
def freshAll (g : Bool) (o : Int) : List LTree → List Desc
  | [] => []
  | t :: r => fresh g o t ++ freshAll g o r
end

theorem modify_append_left (a b : List Desc) (l : Nat) (f : Desc → Desc) (h : l < a.length) :
    (a ++ b).modify l f = a.modify l f ++ b := by
  apply List.ext_getElem?
  intro i
  rw [List.getElem?_modify]
  rcases Nat.lt_or_ge i a.length with h1 | h1
  · rw [List.getElem?_append_left h1, List.getElem?_append_left (by simpa using h1), List.getElem?_modify]
  · rw [List.getElem?_append_right h1, List.getElem?_append_right (by simpa using h1)]
    have : l ≠ i := by omega
    simp [this]

theorem modify_append_last (a : List Desc) (d : Desc) (f : Desc → Desc) :
    (a ++ [d]).modify a.length f = a ++ [f d] := by
  apply List.ext_getElem?
  intro i
  rw [List.getElem?_modify]
  rcases Nat.lt_or_ge i a.length with h1 | h1
  · rw [List.getElem?_append_left h1, List.getElem?_append_left h1]
    have : a.length ≠ i := by omega
    simp [this]
  · rw [List.getElem?_append_right h1, List.getElem?_append_right h1]
    by_cases h2 : a.length = i
    · subst h2; simp
    · have : i - a.length ≠ 0 := by omega
      simp [h2, this]

theorem modify_more (a : List Desc) (l : Nat) (xs ys : List Nat) :
    (a.modify l (Desc.more xs)).modify l (Desc.more ys) = a.modify l (Desc.more (xs ++ ys)) := by
  apply List.ext_getElem?
  intro i
  simp only [List.getElem?_modify, Option.map_map]
  cases a[i]? with
  | none => rfl
  | some d =>
    by_cases h : l = i
    · simp [h, more_more]
    · simp [h]

theorem modify_nil (a : List Desc) (l : Nat) : a.modify l (Desc.more []) = a := by
  rw [more_nil]
  apply List.ext_getElem?
  intro i
  rw [List.getElem?_modify]
  cases a[i]? <;> simp

mutual
theorem rep_traverse (t : LTree) : ∀ (s : State) (ls : List Desc) (l : Nat) (g f : Bool) (o : Int), Rep s ls →
    l < ls.length → Rep (traverse s l t g f o) (ls.modify l (Desc.more (stay g t)) ++ fresh g o t) := by
  intro s ls l g f o h hl
  match t with
  | .missing => simpa [traverse, stay, fresh, modify_nil] using h
  | .node e cs =>
    rw [traverse, stay, fresh]
    by_cases hp : promoted e g = true
    · simp only [if_pos hp, modify_nil]
      have hn := h.new (orderOf e o) (clampOpacity e) (anchorOf e)
      have h1 := hn.1.add (newPromotedLayer s (orderOf e o) (clampOpacity e) (anchorOf e)).2 e.id
      rw [hn.2, modify_append_last] at h1
      rw [hn.2]
      have h2 := rep_traverseAll cs _ _ ls.length true (decide (clampOpacity e < 1)) (orderOf e o)
        (h1.groupIf (decide (clampOpacity e < 1)) e.dom) (by simp)
      rw [modify_append_last] at h2
      simpa [Desc.more] using h2
    · simp only [if_neg hp]
      by_cases hi : (e.isImg && !g) = true
      · simp only [if_pos hi]
        have hn := h.new (orderOf e o) 1 .scroll
        have h1 := hn.1.add (newPromotedLayer s (orderOf e o) 1 .scroll).2 e.id
        rw [hn.2, modify_append_last] at h1
        rw [newLayer, hn.2]
        have h2 := rep_traverseAll cs _ _ l g f (orderOf e o) h1 (by simp; omega)
        rw [modify_append_left _ _ _ _ hl] at h2
        simpa [Desc.more] using h2
      · simp only [if_neg hi]
        have h1 := h.add l e.id
        have h2 := rep_traverseAll cs _ _ l g f (orderOf e o)
          (h1.groupIf (g && f && decide (1 ≤ e.opacity)) e.dom) (by simpa using hl)
        rw [modify_more] at h2
        simpa using h2
theorem rep_traverseAll (ts : List LTree) : ∀ (s : State) (ls : List Desc) (l : Nat) (g f : Bool) (o : Int),
    Rep s ls → l < ls.length →
    Rep (traverseAll s l ts g f o) (ls.modify l (Desc.more (stayAll g ts)) ++ freshAll g o ts) := by
  intro s ls l g f o h hl
  match ts with
  | [] => simpa [traverseAll, stayAll, freshAll, modify_nil] using h
  | t :: r =>
    rw [traverseAll, stayAll, freshAll]
    have h1 := rep_traverse t s ls l g f o h hl
    have h2 := rep_traverseAll r _ _ l g f o h1 (by simp; omega)
    rw [modify_append_left _ _ _ _ (by simpa using hl), modify_more, List.append_assoc] at h2
    exact h2
end

end Verif.Layers
