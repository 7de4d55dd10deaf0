import Verif.Grammar.Ends

/-!
# C101: the engine says yes or no to every value
-/

namespace Verif.Grammar
open Verif

/-- a keyword -/
def kw (s : String) : Component := .leaf (.keyword s.toList) [.once]

/-- a keyword that may be left out -/
def kwOpt (s : String) : Component := .leaf (.keyword s.toList) [.opt]

/-- a value that is a name -/
def word (s : String) : Value := .string s.toList

/-- C101, for the grammars in which whatever is repeated without limit needs a value each time, and no `'name'` is left: for every
value there is a verdict, yes or no, and it stays the same however long one waits. -/
theorem C101_answers_partial (env : Env) (g : Component) (hb : g.busy = true) (hr : g.resolved = true) (input : List Value) :
    Answers env g input .yes ∨ Answers env g input .no := by
  have h := run_sure env g hb hr (K := deeps input) (Nat.le_refl _) input (Nat.le_refl _)
  have hv : verdict env (deeps input + g.rounds + 1) [g] input = .yes ∨ verdict env (deeps input + g.rounds + 1) [g] input = .no := by
    rw [verdict_eq]
    split
    · exact .inl rfl
    · rcases h with h | ⟨r, h⟩
      · rw [h]; exact .inr rfl
      · rw [h]
        cases r with
        | nil => exact .inl rfl
        | cons => exact .inr rfl
  rcases hv with hv | hv
  · exact .inl (answers_of hv (by simp))
  · exact .inr (answers_of hv (by simp))

/-- `[ solid | dashed ]+ || thin{1,3}` and a function with a list -/
example : (Component.group .atLeastOneAnyOrder [.group .exactlyOne [kw "solid", kw "dashed"] [.plus],
    .leaf (.keyword "thin".toList) [.between 1 3], .function "steps".toList (.leaf (.keyword "x".toList) [.csv 1 9]) [.star]]
    [.once]).busy = true := by
  simp [Component.busy, allBusy, hollow, anyHollow, Component.mayBeEmpty, kw, Mult.lets]

/-- and a verdict never changes: there are not two answers -/
theorem C101_one_answer (env : Env) (g : Component) (input : List Value) (v v' : Verdict) (h : Answers env g input v)
    (h' : Answers env g input v') : v = v' := by
  obtain ⟨n, h⟩ := h
  obtain ⟨n', h'⟩ := h'
  rw [← h (max n n') (Nat.le_max_left _ _), ← h' (max n n') (Nat.le_max_right _ _)]

/-- C101 fails: `[a?]*` never comes to an end on a value that is not `a`. -/
theorem C101_answers_violated_loop (env : Env) : ∀ n, verdict env n [.group .juxtaposition [kwOpt "a"] [.star]] [word "b"] = .cut := by
  have loop : ∀ (m : Matcher), m [word "b"] = .ok [word "b"] → ∀ n cnt, inner [.star] m n cnt [word "b"] = .cut := by
    intro m hm n
    induction n with
    | zero => intro cnt; rfl
    | succ n ih =>
      intro cnt
      unfold inner
      have hf : fulfil [.star] (cnt + 1) = .more := rfl
      simp only [List.isEmpty_cons, Bool.false_eq_true, if_false, hm, hf]
      exact ih _
  intro n
  have h : inner [.star] (Comb.run .juxtaposition (parts env n [kwOpt "a"])) n 0 [word "b"] = .cut := by
    cases n with
    | zero => rfl
    | succ n => exact loop (Comb.run .juxtaposition (parts env (n + 1) [kwOpt "a"])) rfl _ _
  have hr : (Component.group .juxtaposition [kwOpt "a"] [.star]).run env n [word "b"] = .cut := by
    unfold Component.run
    exact h
  rw [verdict_eq, hr]
  rfl

/-- C101 fails: a `'name'` that is left in a grammar, as `'-'` is in that of `<calc-sum>`, stops the engine. -/
theorem C101_answers_violated_panic (env : Env) : Answers env
    (.group .juxtaposition [.leaf (.builtin "number".toList ⟨.none, .none⟩) [.once], .leaf (.property "-".toList) [.once],
      .leaf (.builtin "number".toList ⟨.none, .none⟩) [.once]] [.once]) [.number 3, word "-", .number 1] .panic :=
  answers_of (n := 2) rfl (by simp)

end Verif.Grammar
