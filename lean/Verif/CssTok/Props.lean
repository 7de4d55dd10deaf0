import Verif.CssTok.Lemmas

/-! # C94: the CSS tokenizer reads on and ends -/

namespace Verif.CssTok

/-- **C94.** Whatever the text, a call for a token ends, and unless it says that the text has ended it has read at least one
character; at the end nothing is left. -/
theorem C94_progress (env : Env) (first : Bool) (s : Str) (n : Nat) (hn : s.length < n) :
    ∃ t r, env.token n first s = some (t, r) ∧ (∃ u, u ++ r = s) ∧ (t ≠ .eof → r.length < s.length) ∧ (t = .eof → r = []) := by
  obtain ⟨t, r, e, h⟩ := token_total env n first s hn
  refine ⟨t, r, e, ?_⟩
  rcases h with ⟨h, rfl⟩ | ⟨h, h'⟩
  · exact ⟨⟨s, by simp⟩, fun h' => absurd h h', fun _ => rfl⟩
  · exact ⟨h.1, fun _ => h.2, fun h'' => absurd h'' h'⟩

/-- **C94.** It does not depend on how long one waits. -/
theorem C94_one_result (env : Env) (first : Bool) (s : Str) (n m : Nat) (x y : Token × Str) (hx : env.token n first s = some x)
    (hy : env.token m first s = some y) : x = y := token_unique env hx hy

/-- **C94.** Every text has exactly one list of tokens: it is finite, at most one longer than the text, and ends with its only end of
text. -/
theorem C94_ends (env : Env) (first : Bool) (s : Str) :
    ∃ ts, Yields env first s (ts ++ [.eof]) ∧ Token.eof ∉ ts ∧ ts.length ≤ s.length ∧
      ∀ us, Yields env first s us → us = ts ++ [.eof] := by
  induction hl : s.length using Nat.strongRecOn generalizing s first with
  | ind l ih =>
    subst hl
    obtain ⟨t, r, e, h⟩ := token_total env (s.length + 1) first s (by omega)
    rcases h with ⟨rfl, rfl⟩ | ⟨h, ht⟩
    · refine ⟨[], .eof e, by simp, by simp, fun us hu => ?_⟩
      cases hu with
      | eof => rfl
      | next h ht => exact absurd (congrArg Prod.fst (token_unique env h e)) ht
    · obtain ⟨ts, h1, h2, h3, h4⟩ := ih r.length h.2 false r rfl
      refine ⟨t :: ts, .next e ht h1, by simp [h2, Ne.symm ht], by have := h.2; simp; omega, fun us hu => ?_⟩
      cases hu with
      | eof h => exact absurd (congrArg Prod.fst (token_unique env e h)) ht
      | next h ht' hs =>
        cases token_unique env e h
        rw [h4 _ hs]
        rfl

/-- the tables for ASCII alone -/
def ascii : Env := ⟨fun _ => false, fun _ => false⟩

example : Yields ascii true "a{b:c}".toList
    ([.ident ['a'], .lCurly, .ident ['b'], .colon, .ident ['c'], .rCurly] ++ [.eof]) :=
  yields_of_run (n := 9) (k := 9) (by decide +kernel)

end Verif.CssTok
