import Verif.Dom.Query
import Verif.Dom.Spec

/-! # Specification: what a query asks for -/
namespace Verif.Dom
open Verif

/-- node `x` is an element with this name -/
def Named (d : Doc) (x : Nat) (t : Str) : Prop := ∃ e, dataAt d x = some (.element e) ∧ e.name = t

/-- the element `x` meets a condition -/
def Meets (d : Doc) (x : Nat) : Cond → Prop
  | .tag t => Named d x t
  | .id v => attr d x "id".toList = some v
  | .cls w => ∃ v, attr d x "class".toList = some v ∧ IsWord w v
  | .hasAttr k => attr d x k ≠ none
  | .childTag t => ∃ c ∈ children d x, Named d c t
  | .parentTag t => ∃ p, parent d x = some p ∧ Named d p t

/-- a node meets all conditions of a query; only elements meet conditions -/
def Wanted (d : Doc) (conds : List Cond) (x : Nat) : Prop :=
  ∀ c ∈ conds, (∃ t, Named d x t) ∧ Meets d x c

/-- the query ends, with this answer (`none`: an error) -/
def Answers (d : Doc) (t : SearchType) (conds : List Cond) (r : Option (List Nat)) : Prop :=
  ∃ F, ∀ f, F ≤ f → query d t conds f = some r

/-- `r` is what is left of `l` when the nodes that are not wanted are left out -/
inductive Picks (P : Nat → Prop) : List Nat → List Nat → Prop
  | nil : Picks P [] []
  | take {x l r} : P x → Picks P l r → Picks P (x :: l) (x :: r)
  | skip {x l r} : ¬ P x → Picks P l r → Picks P (x :: l) r

end Verif.Dom
