import Verif.CssParse.Model

/-! # Comparing what the parser gives, for the concrete cases -/

namespace Verif.CssParse

open Verif.Select (Part)

mutual
def CssValue.same : CssValue → CssValue → Bool
  | .str v, .str w => v == w
  | .zero, .zero => true
  | .number v, .number w => v == w
  | .percentage v, .percentage w => v == w
  | .unit v u, .unit w x => v == w && u == x
  | .color v, .color w => v == w
  | .function n l, .function m k => n == m && CssValue.sames l k
  | .comma, .comma => true
  | .list l, .list k => CssValue.sames l k
  | _, _ => false
def CssValue.sames : List CssValue → List CssValue → Bool
  | [], [] => true
  | x :: l, y :: k => x.same y && CssValue.sames l k
  | _, _ => false
end

mutual
theorem CssValue.same_eq : ∀ (x y : CssValue), x.same y = true → x = y
  | .str v, y, h => by cases y <;> simp_all [CssValue.same]
  | .zero, y, h => by cases y <;> simp_all [CssValue.same]
  | .number v, y, h => by cases y <;> simp_all [CssValue.same]
  | .percentage v, y, h => by cases y <;> simp_all [CssValue.same]
  | .unit v u, y, h => by cases y <;> simp_all [CssValue.same]
  | .color v, y, h => by cases y <;> simp_all [CssValue.same]
  | .function n l, y, h => by
    cases y with
    | function m k =>
      simp only [CssValue.same, Bool.and_eq_true, beq_iff_eq] at h
      rw [h.1, CssValue.sames_eq l k h.2]
    | _ => simp [CssValue.same] at h
  | .comma, y, h => by cases y <;> simp_all [CssValue.same]
  | .list l, y, h => by
    cases y with
    | list k =>
      simp only [CssValue.same] at h
      rw [CssValue.sames_eq l k h]
    | _ => simp [CssValue.same] at h
theorem CssValue.sames_eq : ∀ (l k : List CssValue), CssValue.sames l k = true → l = k
  | [], k, h => by cases k <;> simp_all [CssValue.sames]
  | x :: l, k, h => by
    cases k with
    | nil => simp [CssValue.sames] at h
    | cons y k =>
      simp only [CssValue.sames, Bool.and_eq_true] at h
      rw [CssValue.same_eq x y h.1, CssValue.sames_eq l k h.2]
end

def Decl.same (x y : Decl) : Bool := x.property == y.property && x.value.same y.value && x.important == y.important

theorem Decl.same_eq {x y : Decl} (h : x.same y = true) : x = y := by
  cases x
  cases y
  simp only [Decl.same, Bool.and_eq_true, beq_iff_eq] at h
  obtain ⟨⟨rfl, h⟩, rfl⟩ := h
  rw [CssValue.same_eq _ _ h]

def sameDecls : List Decl → List Decl → Bool
  | [], [] => true
  | x :: l, y :: k => x.same y && sameDecls l k
  | _, _ => false

theorem sameDecls_eq : ∀ (l k : List Decl), sameDecls l k = true → l = k
  | [], k, h => by cases k <;> simp_all [sameDecls]
  | x :: l, k, h => by
    cases k with
    | nil => simp [sameDecls] at h
    | cons y k =>
      simp only [sameDecls, Bool.and_eq_true] at h
      rw [Decl.same_eq h.1, sameDecls_eq l k h.2]

def sameRules : List Rule → List Rule → Bool
  | [], [] => true
  | x :: l, y :: k => decide (x.selectors = y.selectors) && sameDecls x.declarations y.declarations && sameRules l k
  | _, _ => false

theorem sameRules_eq : ∀ (l k : List Rule), sameRules l k = true → l = k
  | [], k, h => by cases k <;> simp_all [sameRules]
  | x :: l, k, h => by
    cases k with
    | nil => simp [sameRules] at h
    | cons y k =>
      simp only [sameRules, Bool.and_eq_true, decide_eq_true_eq] at h
      rw [sameRules_eq l k h.2]
      cases x
      cases y
      obtain ⟨⟨h1, h2⟩, _⟩ := h
      have := sameDecls_eq _ _ h2
      simp_all

/-- the parser gives these rules -/
def Outcome.gives : Outcome → List Rule → Bool
  | .rules l, k => sameRules l k
  | _, _ => false

theorem Outcome.gives_eq {o : Outcome} {k : List Rule} (h : o.gives k = true) : o = .rules k := by
  cases o with
  | rules l => rw [sameRules_eq l k h]
  | _ => cases h

def Outcome.isError : Outcome → Bool
  | .error => true
  | _ => false

theorem Outcome.isError_eq {o : Outcome} (h : o.isError = true) : o = .error := by cases o <;> first | rfl | cases h

end Verif.CssParse
