import Verif.CssTok.Trip
import Verif.CssTok.Determ

/-! # C97: identifiers -/

namespace Verif.CssTok

open Standard Cssom

/-- nothing that would make a name into something else -/
def Follow (r : Str) : Prop := Apart r ∧ r.head? ≠ some '(' ∧ r.head? ≠ some '>'

/-- the full claim: an identifier written as the CSSOM says is read back as that identifier, whatever follows it apart from the rest of
a name, a parenthesis or `>` -/
def IdentsBack (env : Env) : Prop :=
  ∀ v r n, v ≠ [] → Follow r → (Cssom.ident v ++ r).length < n → env.token n false (Cssom.ident v ++ r) = some (.ident (value v), r)

theorem identLike_back {env : Env} {n : Nat} {s w r : Str} (h : env.ident n s [] = some (w, r)) (hr : r.head? ≠ some '(') :
    env.identLike n s = some (.ident w, r) := by
  rw [List.head?_eq_getElem?] at hr
  simp [Env.identLike, h, hr]

theorem ident_not_num {env : Env} {x : Char} (hx : IdentStart x) (h : 128 ≤ x.toNat → env.num x = false) : env.isNum x = false := by
  by_cases hc : x.toNat < 128
  · rw [← Bool.not_eq_true, isNum_ascii env hc]
    exact (identStart_else hx).2.2.2.2.2.2.2.2.2
  · simp [Env.isNum, hc, h (by omega)]

theorem ident_not_ws {env : Env} {x : Char} (hx : IdentStart x) (h : 128 ≤ x.toNat → env.ws x = false) : env.isWs x = false := by
  by_cases hc : x.toNat < 128
  · rw [← Bool.not_eq_true, isWs_ascii env hc]
    rintro (h | rfl | rfl | rfl)
    · exact (identStart_else hx).1 h
    · exact absurd hx (by decide)
    · exact absurd hx (by decide)
    · exact absurd hx (by decide)
  · simp [Env.isWs, hc, h (by omega)]

theorem flatMap_head {q r : Str} {c : Char} (hc : c ∉ digits ∧ c ∉ letters ∧ c ≠ '-' ∧ c ≠ '_' ∧ c ≠ '\\' ∧ c.toNat < 128) (hr : r.head? ≠ some c) :
    (q.flatMap identChar ++ r).head? ≠ some c := by
  cases q with
  | nil => simpa using hr
  | cons w q =>
    rcases identChar_shape w with ⟨x, e, hx, _⟩ | ⟨d, q', e, _⟩
    · simp only [List.flatMap_cons, e, List.cons_append, List.head?_cons, ne_eq, Option.some.injEq]
      rintro rfl
      rcases hx with h | h | h | h | h
      · omega
      · exact hc.2.2.1 h
      · exact hc.2.2.2.1 h
      · exact hc.1 h
      · exact hc.2.1 h
    · simp only [List.flatMap_cons, e, List.cons_append, List.head?_cons, ne_eq, Option.some.injEq]
      rintro rfl
      exact hc.2.2.2.2.1 rfl

/-- **C97, in part.** It is, if it does not begin with white space or a numeral beyond ASCII, with or without a hyphen before it, and is not a
`u` followed by `+`. Missing: these, for which it is false. -/
theorem C97_idents_partial (env : Env) (v r : Str) (n : Nat) (hv : v ≠ []) (hr : Follow r)
    (h1 : ∀ c, (value v).head? = some c → 128 ≤ c.toNat → env.ws c = false ∧ env.num c = false)
    (h2 : ∀ c q, value v = '-' :: c :: q → 128 ≤ c.toNat → env.num c = false)
    (h3 : ¬ ((v = ['u'] ∨ v = ['U']) ∧ r.head? = some '+')) (hn : (Cssom.ident v ++ r).length < n) :
    env.token n false (Cssom.ident v ++ r) = some (.ident (value v), r) := by
  refine enough ?_ hn
  obtain ⟨n, e⟩ := ident_back env v r [] hr.1
  rw [List.nil_append] at e
  have like := identLike_back e hr.2.1
  have starts := startsIdent_back hv r
  refine ⟨n, ?_⟩
  rcases ident_shape hv with ⟨d, q, es, hd⟩ | ⟨x, w, q, ev, es, hx, hf⟩ | ⟨d, q, es, hd⟩ | ⟨x, w, q, ev, es, hx, hf⟩
  · rw [es] at like ⊢
    rw [List.cons_append] at like ⊢
    rw [token_plain env n false _ (by simp) (by decide), ← like]
    rw [Env.dispatch, if_neg (by rw [isWs_ascii env (by decide)]; decide), if_neg (by decide), if_neg (by decide), if_neg (by decide), if_neg (by decide),
      if_neg (by decide), if_neg (by decide), if_neg (by decide), if_neg (by decide), if_neg (by decide), if_neg (by decide), if_neg (by decide),
      if_neg (by decide), if_neg (by decide), if_neg (by decide), if_neg (by decide), if_neg (by decide), if_pos rfl,
      if_pos (by rw [isEscape_iff, validEscape_cons]; exact ⟨rfl, by simp [hd]⟩)]
  · rw [es] at like ⊢
    rw [List.cons_append] at like ⊢
    have hh : (value v).head? = some x := by rw [ev, hf]; rfl
    obtain ⟨g1, g2, g3, g4, g5, g6, g7, g8, g9, g10⟩ := identStart_else hx
    have hs : x ≠ '/' := by rintro rfl; exact absurd hx (by decide)
    have g4' : ∀ p ∈ punctuation.map (·.1), x ≠ p := by rintro p hp rfl; exact g4 hp
    rw [not_or] at g5
    rw [token_plain env n false _ (by simp) hs, ← like]
    rw [Env.dispatch, if_neg (by rw [ident_not_ws hx (fun h => (h1 x hh h).1)]; simp), if_neg g2, if_neg g3, if_neg (g4' _ (by decide)), if_neg (g4' _ (by decide)),
      if_neg (g4' _ (by decide)), if_neg (g4' _ (by decide)), if_neg (g4' _ (by decide)), if_neg (g4' _ (by decide)), if_neg (g4' _ (by decide)),
      if_neg (g4' _ (by decide)), if_neg (g4' _ (by decide)), if_neg g5.1, if_neg g5.2, if_neg g6, if_neg g7, if_neg g8, if_neg g9,
      if_neg (by rw [ident_not_num hx (fun h => (h1 x hh h).2)]; simp), if_neg ?_, if_pos ((isIdentStart_iff x).2 hx)]
    rintro ⟨hu, hrange⟩
    have hplus : (q.flatMap identChar ++ r).head? = some '+' := by
      rw [List.head?_eq_getElem?]
      simp [startsRange] at hrange
      exact hrange.1
    have hrp : r.head? = some '+' := by
      by_contra hne
      exact flatMap_head (by decide) hne hplus
    have hq : q = [] := by
      by_contra hq
      obtain ⟨y, q, rfl⟩ := List.exists_cons_of_ne_nil hq
      rcases identChar_shape y with ⟨z, ez, hz, _⟩ | ⟨d, q', ez, _⟩
      · simp [ez] at hplus
        subst hplus
        exact absurd hz (by decide)
      · simp [ez] at hplus
    have hw : x = w := by
      rw [hf, fixed]
      split_ifs with h0
      · subst h0
        rw [hf] at hu
        exact absurd hu (by decide)
      · rfl
    refine h3 ⟨?_, hrp⟩
    rw [ev, hq, ← hw]
    rcases hu with rfl | rfl <;> simp
  · rw [es] at like starts ⊢
    rw [List.cons_append] at like starts ⊢
    rw [token_plain env n false _ (by simp) (by decide), ← like]
    have hsd : env.signedDecimal ('-' :: ('\\' :: d :: q ++ r)) = false := by
      have : env.isNum '\\' = false := by rw [← Bool.not_eq_true, isNum_ascii env (by decide)]; decide
      simp [Env.signedDecimal, this]
    rw [Env.dispatch, if_neg (by rw [isWs_ascii env (by decide)]; decide), if_neg (by decide), if_neg (by decide), if_neg (by decide), if_neg (by decide),
      if_neg (by decide), if_neg (by decide), if_neg (by decide), if_neg (by decide), if_neg (by decide), if_neg (by decide), if_neg (by decide),
      if_neg (by decide), if_neg (by decide), if_pos rfl, if_neg (by rw [hsd]; simp), if_neg (by simp [lookSlice]), if_pos starts]
  · rw [es] at like starts ⊢
    rw [List.cons_append] at like starts ⊢
    rw [token_plain env n false _ (by simp) (by decide), ← like]
    have hval : ∃ q', value v = '-' :: x :: q' := ⟨value q, by rw [ev, hf]; rfl⟩
    obtain ⟨q', hval⟩ := hval
    have hnum : env.isNum x = false := by
      rcases hx with hx | rfl
      · exact ident_not_num hx (h2 x q' hval)
      · rw [← Bool.not_eq_true, isNum_ascii env (by decide)]; decide
    have hdot : x ≠ '.' := by
      rintro rfl
      exact absurd hx (by decide)
    have hsd : env.signedDecimal ('-' :: (x :: q.flatMap identChar ++ r)) = false := by
      simp [Env.signedDecimal, hnum, hdot]
    have hcdc : lookSlice 3 ('-' :: (x :: q.flatMap identChar ++ r)) ≠ "-->".toList := by
      intro h
      obtain ⟨s, h⟩ := take_three '-' '-' '>' h
      simp at h
      have := flatMap_head (q := q) (r := r) (c := '>') (by decide) hr.2.2
      rw [h.2] at this
      exact this rfl
    rw [Env.dispatch, if_neg (by rw [isWs_ascii env (by decide)]; decide), if_neg (by decide), if_neg (by decide), if_neg (by decide), if_neg (by decide),
      if_neg (by decide), if_neg (by decide), if_neg (by decide), if_neg (by decide), if_neg (by decide), if_neg (by decide), if_neg (by decide),
      if_neg (by decide), if_neg (by decide), if_pos rfl, if_neg (by rw [hsd]; simp), if_neg hcdc, if_pos starts]

theorem apart_nil : Apart [] := by
  intro c h
  simp at h

example : (ascii.token 20 false (Cssom.ident "-5 x".toList ++ "{}".toList) = some (.ident "-5 x".toList, "{}".toList)) ∧ Follow "{}".toList := by
  refine ⟨by decide +kernel, ?_, by decide, by decide⟩
  intro c hc
  simp at hc
  subst hc
  decide

/-- An identifier that is a no-break space is read as white space. -/
theorem C97_space_violated (env : Env) (h : env.ws (Char.ofNat 0xA0) = true) : ¬ IdentsBack env := by
  intro hb
  have := hb [Char.ofNat 0xA0] [] 9 (by simp) ⟨apart_nil, by simp, by simp⟩ (by decide)
  have e : env.isWs (Char.ofNat 0xA0) = true := by simp [Env.isWs, h]
  have e1 : env.token 9 false [Char.ofNat 0xA0] = some (.whitespace, []) := by
    have : env.token 9 false [Char.ofNat 0xA0] = env.dispatch 9 [Char.ofNat 0xA0] := rfl
    rw [this, Env.dispatch]
    simp [e, Env.skipWs]
  have e2 : Cssom.ident [Char.ofNat 0xA0] ++ [] = [Char.ofNat 0xA0] := by decide
  rw [e2, e1] at this
  simp at this

/-- `u` before `+a` is read as part of a unicode range. -/
theorem C97_range_violated (env : Env) : ¬ IdentsBack env := by
  intro hb
  have := hb ['u'] ['+', 'a'] 9 (by simp) ⟨by intro c hc; simp at hc; subst hc; decide, by simp, by simp⟩ (by decide)
  have e1 : env.token 9 false ['u', '+', 'a'] = some (.unicodeRange ['u', '+', 'a'], []) := rfl
  have e2 : Cssom.ident ['u'] ++ ['+', 'a'] = ['u', '+', 'a'] := by decide
  rw [e2, e1] at this
  simp at this

end Verif.CssTok
