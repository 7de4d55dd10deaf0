import Verif.CssTok.Trip2
import Verif.CssTok.Written

/-! # Written tokens are read back -/

namespace Verif.CssTok

open Standard Cssom

theorem value_word {v : Str} (h : Char.ofNat 0 ∉ v) : value v = v := by
  unfold value
  conv_rhs => rw [← List.map_id v]
  refine List.map_congr_left fun c hc => ?_
  rw [if_neg (by rintro rfl; exact h hc)]
  rfl

/-- a written name goes to the part of the tokenizer for names -/
theorem token_word (env : Env) (first : Bool) (v r : Str) (n : Nat) (hv : Word v)
    (h3 : ¬ ((v = ['u'] ∨ v = ['U']) ∧ r.head? = some '+')) :
    env.token n first (Cssom.ident v ++ r) = env.identLike n (Cssom.ident v ++ r) := by
  obtain ⟨hv, h0, ha, hm⟩ := hv
  have ev := value_word h0
  have starts := startsIdent_back hv r
  have h1 : ∀ c, (value v).head? = some c → c.toNat < 128 := by
    intro c hc
    rw [ev] at hc
    cases v with
    | nil => cases hc
    | cons d q => cases hc; exact ha _ (by simp)
  have h2 : ∀ c q, value v = '-' :: c :: q → c.toNat < 128 := by
    intro c q hc
    rw [ev] at hc
    subst hc
    exact ha _ (by simp)
  have bom : ∀ c : Char, c.toNat < 128 → first = true → c ≠ Char.ofNat 0xFEFF := by
    rintro c hc _ rfl
    exact absurd hc (by decide)
  rcases ident_shape hv with ⟨d, q, es, hd⟩ | ⟨x, w, q, ev, es, hx, hf⟩ | ⟨d, q, es, hd⟩ | ⟨x, w, q, ev, es, hx, hf⟩
  · rw [es]
    rw [List.cons_append]
    rw [token_plain env n first _ (bom _ (by decide)) (by decide)]
    rw [Env.dispatch, if_neg (by rw [isWs_ascii env (by decide)]; decide), if_neg (by decide), if_neg (by decide), if_neg (by decide), if_neg (by decide),
      if_neg (by decide), if_neg (by decide), if_neg (by decide), if_neg (by decide), if_neg (by decide), if_neg (by decide), if_neg (by decide),
      if_neg (by decide), if_neg (by decide), if_neg (by decide), if_neg (by decide), if_neg (by decide), if_pos rfl,
      if_pos (by rw [isEscape_iff, validEscape_cons]; exact ⟨rfl, by simp [hd]⟩)]
  · rw [es]
    rw [List.cons_append]
    have hh : (value v).head? = some x := by rw [ev, hf]; rfl
    have hlt := h1 x hh
    obtain ⟨g1, g2, g3, g4, g5, g6, g7, g8, g9, g10⟩ := identStart_else hx
    have hs : x ≠ '/' := by rintro rfl; exact absurd hx (by decide)
    have g4' : ∀ p ∈ punctuation.map (·.1), x ≠ p := by rintro p hp rfl; exact g4 hp
    rw [not_or] at g5
    rw [token_plain env n first _ (bom _ hlt) hs]
    rw [Env.dispatch, if_neg (by rw [ident_not_ws hx (fun h => by omega)]; simp), if_neg g2, if_neg g3, if_neg (g4' _ (by decide)), if_neg (g4' _ (by decide)),
      if_neg (g4' _ (by decide)), if_neg (g4' _ (by decide)), if_neg (g4' _ (by decide)), if_neg (g4' _ (by decide)), if_neg (g4' _ (by decide)),
      if_neg (g4' _ (by decide)), if_neg (g4' _ (by decide)), if_neg g5.1, if_neg g5.2, if_neg g6, if_neg g7, if_neg g8, if_neg g9,
      if_neg (by rw [ident_not_num hx (fun h => by omega)]; simp), if_neg ?_, if_pos ((isIdentStart_iff x).2 hx)]
    rintro ⟨hu, hrange⟩
    have hplus : (q.flatMap identChar ++ r).head? = some '+' := by
      rw [List.head?_eq_getElem?]
      simp [startsRange] at hrange
      exact hrange.1
    have hrp : r.head? = some '+' := by
      by_contra hne
      exact flatMap_head (by decide) hne hplus
    have hq : q = [] := by
      by_contra hq
      obtain ⟨y, q, rfl⟩ := List.exists_cons_of_ne_nil hq
      rcases identChar_shape y with ⟨z, ez, hz, _⟩ | ⟨d, q', ez, _⟩
      · simp [ez] at hplus
        subst hplus
        exact absurd hz (by decide)
      · simp [ez] at hplus
    have hw : x = w := by
      rw [hf, fixed]
      split_ifs with h0
      · subst h0
        rw [hf] at hu
        exact absurd hu (by decide)
      · rfl
    refine h3 ⟨?_, hrp⟩
    rw [ev, hq, ← hw]
    rcases hu with rfl | rfl <;> simp
  · rw [es] at starts ⊢
    rw [List.cons_append] at starts ⊢
    rw [token_plain env n first _ (bom _ (by decide)) (by decide)]
    have hsd : env.signedDecimal ('-' :: ('\\' :: d :: q ++ r)) = false := by
      have : env.isNum '\\' = false := by rw [← Bool.not_eq_true, isNum_ascii env (by decide)]; decide
      simp [Env.signedDecimal, this]
    rw [Env.dispatch, if_neg (by rw [isWs_ascii env (by decide)]; decide), if_neg (by decide), if_neg (by decide), if_neg (by decide), if_neg (by decide),
      if_neg (by decide), if_neg (by decide), if_neg (by decide), if_neg (by decide), if_neg (by decide), if_neg (by decide), if_neg (by decide),
      if_neg (by decide), if_neg (by decide), if_pos rfl, if_neg (by rw [hsd]; simp), if_neg (by simp [lookSlice]), if_pos starts]
  · rw [es] at starts ⊢
    rw [List.cons_append] at starts ⊢
    rw [token_plain env n first _ (bom _ (by decide)) (by decide)]
    have hval : ∃ q', value v = '-' :: x :: q' := ⟨value q, by rw [ev, hf]; rfl⟩
    obtain ⟨q', hval⟩ := hval
    have hnum : env.isNum x = false := by
      rcases hx with hx | rfl
      · exact ident_not_num hx (fun h => by have := h2 x q' hval; omega)
      · rw [← Bool.not_eq_true, isNum_ascii env (by decide)]; decide
    have hdot : x ≠ '.' := by
      rintro rfl
      exact absurd hx (by decide)
    have hsd : env.signedDecimal ('-' :: (x :: q.flatMap identChar ++ r)) = false := by
      simp [Env.signedDecimal, hnum, hdot]
    have hcdc : lookSlice 3 ('-' :: (x :: q.flatMap identChar ++ r)) ≠ "-->".toList := by
      intro h
      obtain ⟨s, h⟩ := take_three '-' '-' '>' h
      simp at h
      have hq : q = [] := by
        by_contra hq
        obtain ⟨y, q, rfl⟩ := List.exists_cons_of_ne_nil hq
        rcases identChar_shape y with ⟨z, ez, hz, _⟩ | ⟨d, q', ez, _⟩
        · simp [ez] at h
          obtain ⟨_, rfl, _⟩ := h
          exact absurd hz (by decide)
        · simp [ez] at h
      subst hq
      have : w = '-' := by
        have e1 := h.1
        rw [hf, fixed] at e1
        split_ifs at e1
        · exact absurd e1 (by decide)
        · exact e1
      subst this
      exact hm ev
    rw [Env.dispatch, if_neg (by rw [isWs_ascii env (by decide)]; decide), if_neg (by decide), if_neg (by decide), if_neg (by decide), if_neg (by decide),
      if_neg (by decide), if_neg (by decide), if_neg (by decide), if_neg (by decide), if_neg (by decide), if_neg (by decide), if_neg (by decide),
      if_neg (by decide), if_neg (by decide), if_pos rfl, if_neg (by rw [hsd]; simp), if_neg hcdc, if_pos starts]

/-! ## Numbers -/

theorem num_digit (env : Env) {c : Char} (h : c ∈ digits) : env.isNum c = true := (isNum_ascii env (digit_small h)).2 h

theorem num_not (env : Env) {c : Char} (h : c.toNat < 128) (hd : c ∉ digits) : env.isNum c = false := by
  rw [← Bool.not_eq_true, isNum_ascii env h]
  exact hd

/-- what comes after does not go on with a number -/
def Stops (r : Str) : Prop := ∀ c, r.head? = some c → c.toNat < 128 ∧ c ∉ digits

theorem digits_back (env : Env) {ds r : Str} (h : ∀ c ∈ ds, c ∈ digits) (hr : Stops r) : env.digits (ds ++ r) = (ds, r) := by
  unfold Env.digits
  induction ds with
  | nil =>
    cases r with
    | nil => rfl
    | cons c r =>
      have := num_not env (hr c rfl).1 (hr c rfl).2
      simp [this]
  | cons c ds ih =>
    have ih := ih fun c hc => h c (by simp [hc])
    simp only [Prod.mk.injEq] at ih
    simp [num_digit env (h c (by simp)), ih]

/-- what comes after is no exponent -/
def NoExponent (env : Env) (r : Str) : Prop := env.exponent r = ([], r)

theorem number_back (env : Env) {v r : Str} (hv : Numeral v) (hr : Stops r) (hd : r.head? ≠ some '.') (he : NoExponent env r) :
    env.number (v ++ r) = (v, r) := by
  obtain ⟨s, ds, fs, hs, hds, hfs, rfl⟩ := hv
  have hsign : sign (s ++ ds ++ fs ++ r) = (s, ds ++ (fs ++ r)) := by
    rcases hs with rfl | rfl | rfl
    · cases ds with
      | nil =>
        rcases hfs with ⟨_, h⟩ | ⟨es, _, _, rfl⟩
        · exact absurd rfl h
        · simp [sign]
      | cons d ds =>
        have := not_digit_sign (hds d (by simp))
        simp [sign, this]
    · simp [sign]
    · simp [sign]
  have hdot : Stops (fs ++ r) := by
    rcases hfs with ⟨rfl, _⟩ | ⟨es, _, _, rfl⟩
    · exact hr
    · intro c hc
      cases hc
      exact ⟨by decide, by decide⟩
  have hfrac : env.fraction (fs ++ r) = (fs, r) := by
    rcases hfs with ⟨rfl, _⟩ | ⟨es, hes, hed, rfl⟩
    · unfold Env.fraction
      rw [if_neg]
      · rfl
      · cases r with
        | nil => simp
        | cons c r =>
          have : c ≠ '.' := by rintro rfl; exact hd rfl
          simp [this]
    · obtain ⟨e, es, rfl⟩ := List.exists_cons_of_ne_nil hes
      have hb := digits_back env (ds := es) (r := r) (fun c hc => hed c (by simp [hc])) hr
      unfold Env.fraction
      rw [if_pos (by simp [num_digit env (hed e (by simp))])]
      simp [hb]
  unfold Env.number
  simp only [hsign, digits_back env hds hdot, hfrac]
  rw [he]
  simp

theorem numeral_cons {v : Str} (hv : Numeral v) : (∃ d q, v = d :: q ∧ d ∈ digits) ∨ (∃ d q, v = '.' :: d :: q ∧ d ∈ digits) ∨
    (∃ c d q, v = c :: d :: q ∧ (c = '+' ∨ c = '-') ∧ d ∈ digits) ∨ ∃ c d q, v = c :: '.' :: d :: q ∧ (c = '+' ∨ c = '-') ∧ d ∈ digits := by
  obtain ⟨s, ds, fs, hs, hds, hfs, rfl⟩ := hv
  have hu : (∃ d q, ds ++ fs = d :: q ∧ d ∈ digits) ∨ ∃ d q, ds ++ fs = '.' :: d :: q ∧ d ∈ digits := by
    cases ds with
    | nil =>
      rcases hfs with ⟨_, h⟩ | ⟨es, hes, hed, rfl⟩
      · exact absurd rfl h
      · obtain ⟨e, es, rfl⟩ := List.exists_cons_of_ne_nil hes
        exact .inr ⟨e, es, rfl, hed e (by simp)⟩
    | cons d ds => exact .inl ⟨d, ds ++ fs, rfl, hds d (by simp)⟩
  rcases hs with rfl | rfl | rfl
  · rcases hu with ⟨d, q, e, hd⟩ | ⟨d, q, e, hd⟩
    · exact .inl ⟨d, q, by simpa using e, hd⟩
    · exact .inr (.inl ⟨d, q, by simpa using e, hd⟩)
  · rcases hu with ⟨d, q, e, hd⟩ | ⟨d, q, e, hd⟩
    · exact .inr (.inr (.inl ⟨'+', d, q, by simpa using e, .inl rfl, hd⟩))
    · exact .inr (.inr (.inr ⟨'+', d, q, by simpa using e, .inl rfl, hd⟩))
  · rcases hu with ⟨d, q, e, hd⟩ | ⟨d, q, e, hd⟩
    · exact .inr (.inr (.inl ⟨'-', d, q, by simpa using e, .inr rfl, hd⟩))
    · exact .inr (.inr (.inr ⟨'-', d, q, by simpa using e, .inr rfl, hd⟩))

theorem token_ascii (env : Env) (n : Nat) (first : Bool) {c : Char} (s : Str) (h1 : c.toNat < 128) (h2 : c ≠ '/') :
    env.token n first (c :: s) = env.dispatch n (c :: s) :=
  token_plain env n first s (by rintro _ rfl; exact absurd h1 (by decide)) h2

/-- a written number goes to the part of the tokenizer for numbers -/
theorem token_numeral (env : Env) (first : Bool) {v : Str} (r : Str) (n : Nat) (hv : Numeral v) :
    env.token n first (v ++ r) = env.numeric n (v ++ r) := by
  rcases numeral_cons hv with ⟨d, q, rfl, hd⟩ | ⟨d, q, rfl, hd⟩ | ⟨c, d, q, rfl, hc, hd⟩ | ⟨c, d, q, rfl, hc, hd⟩
  · obtain ⟨g1, g2, g3, g4, g5⟩ := digit_else hd
    have g4' : ∀ p ∈ punctuation.map (·.1), d ≠ p := by rintro p hp rfl; exact g4 hp
    have hne : d ≠ '.' ∧ d ≠ '-' ∧ d ≠ '+' ∧ d ≠ '/' ∧ d ≠ '<' ∧ d ≠ '@' ∧ d ≠ '\\' := by
      exact ascii_all (P := fun d => d ∈ digits → d ≠ '.' ∧ d ≠ '-' ∧ d ≠ '+' ∧ d ≠ '/' ∧ d ≠ '<' ∧ d ≠ '@' ∧ d ≠ '\\') (by decide +kernel) d (digit_small hd) hd
    obtain ⟨k1, k2, k3, k4, k5, k6, k7⟩ := hne
    have kws : env.isWs d = false := by
      rw [← Bool.not_eq_true, isWs_ascii env (digit_small hd)]
      exact ascii_all (P := fun d => d ∈ digits → ¬ (Whitespace d ∨ d = '\r' ∨ d = '\x0B' ∨ d = '\x0C')) (by decide +kernel) d (digit_small hd) hd
    rw [List.cons_append, token_ascii env n first _ (digit_small hd) k4, Env.dispatch, if_neg (by rw [kws]; simp), if_neg g2, if_neg g3,
      if_neg (g4' _ (by decide)), if_neg (g4' _ (by decide)), if_neg (g4' _ (by decide)), if_neg (g4' _ (by decide)), if_neg (g4' _ (by decide)),
      if_neg (g4' _ (by decide)), if_neg (g4' _ (by decide)), if_neg (g4' _ (by decide)), if_neg (g4' _ (by decide)), if_neg k3, if_neg k1,
      if_neg k2, if_neg k5, if_neg k6, if_neg k7, if_pos (num_digit env hd)]
  · rw [List.cons_append, token_ascii env n first _ (by decide) (by decide), Env.dispatch,
      if_neg (by rw [isWs_ascii env (by decide)]; decide), if_neg (by decide), if_neg (by decide), if_neg (by decide), if_neg (by decide),
      if_neg (by decide), if_neg (by decide), if_neg (by decide), if_neg (by decide), if_neg (by decide), if_neg (by decide), if_neg (by decide),
      if_neg (by decide), if_pos rfl, if_pos (by simp [num_digit env hd])]
  · have hsd : env.signedDecimal (c :: (d :: q ++ r)) = true := by
      rcases hc with rfl | rfl <;> simp [Env.signedDecimal, num_digit env hd]
    rw [List.cons_append]
    rcases hc with rfl | rfl
    · rw [token_ascii env n first _ (by decide) (by decide), Env.dispatch,
        if_neg (by rw [isWs_ascii env (by decide)]; decide), if_neg (by decide), if_neg (by decide), if_neg (by decide), if_neg (by decide),
        if_neg (by decide), if_neg (by decide), if_neg (by decide), if_neg (by decide), if_neg (by decide), if_neg (by decide), if_neg (by decide),
        if_pos rfl, if_pos hsd]
    · rw [token_ascii env n first _ (by decide) (by decide), Env.dispatch,
        if_neg (by rw [isWs_ascii env (by decide)]; decide), if_neg (by decide), if_neg (by decide), if_neg (by decide), if_neg (by decide),
        if_neg (by decide), if_neg (by decide), if_neg (by decide), if_neg (by decide), if_neg (by decide), if_neg (by decide), if_neg (by decide),
        if_neg (by decide), if_neg (by decide), if_pos rfl, if_pos hsd]
  · have hsd : env.signedDecimal (c :: ('.' :: d :: q ++ r)) = true := by
      rcases hc with rfl | rfl <;> simp [Env.signedDecimal, num_digit env hd]
    rw [List.cons_append]
    rcases hc with rfl | rfl
    · rw [token_ascii env n first _ (by decide) (by decide), Env.dispatch,
        if_neg (by rw [isWs_ascii env (by decide)]; decide), if_neg (by decide), if_neg (by decide), if_neg (by decide), if_neg (by decide),
        if_neg (by decide), if_neg (by decide), if_neg (by decide), if_neg (by decide), if_neg (by decide), if_neg (by decide), if_neg (by decide),
        if_pos rfl, if_pos hsd]
    · rw [token_ascii env n first _ (by decide) (by decide), Env.dispatch,
        if_neg (by rw [isWs_ascii env (by decide)]; decide), if_neg (by decide), if_neg (by decide), if_neg (by decide), if_neg (by decide),
        if_neg (by decide), if_neg (by decide), if_neg (by decide), if_neg (by decide), if_neg (by decide), if_neg (by decide), if_neg (by decide),
        if_neg (by decide), if_neg (by decide), if_pos rfl, if_pos hsd]

theorem apart_stops {r : Str} (h : Apart r) : Stops r := fun c hc => ⟨(h c hc).1, fun hd => (h c hc).2.1 (.inr (.inl hd))⟩

theorem apart_exponent {env : Env} {r : Str} (h : Apart r) : NoExponent env r := by
  unfold NoExponent Env.exponent
  rw [if_neg]
  cases r with
  | nil => simp
  | cons c r =>
    have hc := (h c rfl).2.1
    have h1 : c ≠ 'E' := by rintro rfl; exact hc (by decide)
    have h2 : c ≠ 'e' := by rintro rfl; exact hc (by decide)
    simp [h1, h2]

theorem apart_not_starts {r : Str} (h : Apart r) : startsIdent r = false := by
  cases r with
  | nil => decide
  | cons c r =>
    obtain ⟨_, h2, h3⟩ := h c rfl
    have h1 : c ≠ '-' := by rintro rfl; exact h2 (by decide)
    have h4 : isIdentStart c = false := by
      rw [← Bool.not_eq_true, isIdentStart_iff]
      exact fun h => h2 (.inl h)
    simp [startsIdent, h1, h3, toChar, h4]

theorem number_token (env : Env) (first : Bool) {v r : Str} (hv : Numeral v) (hr : Apart r) (h1 : r.head? ≠ some '.') (h2 : r.head? ≠ some '%')
    (n : Nat) : env.token n first (v ++ r) = some (.number v, r) := by
  rw [token_numeral env first r n hv, Env.numeric, number_back env hv (apart_stops hr) h1 (apart_exponent hr)]
  simp only [apart_not_starts hr]
  rw [if_neg (by simp), if_neg (by rw [← List.head?_eq_getElem?]; exact h2)]

theorem percentage_token (env : Env) (first : Bool) {v : Str} (r : Str) (hv : Numeral v) (n : Nat) :
    env.token n first (v ++ '%' :: r) = some (.percentage v, r) := by
  have hr : Apart ('%' :: r) := by
    intro c hc
    cases hc
    exact ⟨by decide, by decide, by decide⟩
  rw [token_numeral env first _ n hv, Env.numeric, number_back env hv (apart_stops hr) (by simp) (apart_exponent hr)]
  simp only [apart_not_starts hr]
  rw [if_neg (by simp), if_pos (by simp), nextChar_cons (by decide)]

theorem identChar_letter {c : Char} (h : c ∈ letters) : identChar c = [c] := by
  have : c.toNat < 128 := mem_small (by decide +kernel) h
  revert h
  exact ascii_all (P := fun c => c ∈ letters → identChar c = [c]) (by decide +kernel) c this

theorem letters_ident {u : Str} (h : ∀ c ∈ u, c ∈ letters) : u.flatMap identChar = u := by
  induction u with
  | nil => rfl
  | cons c u ih => rw [List.flatMap_cons, identChar_letter (h c (by simp)), ih fun c hc => h c (by simp [hc])]; rfl

theorem letter_small {c : Char} (h : c ∈ letters) : c.toNat < 128 := mem_small (by decide +kernel) h

theorem letter_else {c : Char} (h : c ∈ letters) : c ∉ digits ∧ c ≠ '.' ∧ c ≠ '-' ∧ c ≠ '+' ∧ c ≠ Char.ofNat 0 ∧ c ≠ '\\' := by
  revert h
  intro h
  exact ascii_all (P := fun c => c ∈ letters → c ∉ digits ∧ c ≠ '.' ∧ c ≠ '-' ∧ c ≠ '+' ∧ c ≠ Char.ofNat 0 ∧ c ≠ '\\') (by decide +kernel) c (letter_small h) h

theorem dimension_token (env : Env) (first : Bool) {v u r : Str} (hv : Numeral v) (hu : UnitName u) (hr : Apart r) :
    ∃ n, env.token n first (v ++ u ++ r) = some (.dimension v u, r) := by
  obtain ⟨h0, hl, he1, he2⟩ := hu
  obtain ⟨n, e⟩ := ident_chars env u r [] hr
  have hval : value u = u := value_word (fun h => (letter_else (hl _ h)).2.2.2.2.1 rfl)
  rw [letters_ident hl, hval, List.nil_append] at e
  refine ⟨n, ?_⟩
  obtain ⟨c, q, rfl⟩ := List.exists_cons_of_ne_nil h0
  obtain ⟨k1, k2, k3, k4, k5, k6⟩ := letter_else (hl c (by simp))
  have hs : Stops (c :: q ++ r) := by
    intro d hd
    cases hd
    exact ⟨letter_small (hl c (by simp)), k1⟩
  have hex : NoExponent env (c :: q ++ r) := by
    unfold NoExponent Env.exponent
    rw [if_neg]
    intro h
    simp only [Bool.and_eq_true, Bool.or_eq_true, decide_eq_true_eq, List.cons_append, List.getElem?_cons_zero, Option.some.injEq,
      List.getElem?_cons_succ] at h
    obtain ⟨hc, h⟩ := h
    cases q with
    | nil => rcases hc with rfl | rfl; exacts [he2 rfl, he1 rfl]
    | cons d q =>
      have hd := hl d (by simp)
      obtain ⟨d1, d2, d3, d4, _⟩ := letter_else hd
      have := num_not env (letter_small hd) d1
      simp [d3, d4, this] at h
  have hst : startsIdent (c :: q ++ r) = true := by
    have : isIdentStart c = true := (isIdentStart_iff c).2 (.inl (hl c (by simp)))
    simp [startsIdent, k3, k6, toChar, this]
  rw [List.append_assoc, token_numeral env first _ n hv, Env.numeric, number_back env hv hs (by simp [k2]) hex]
  simp only [hst, if_true]
  rw [e]
  rfl

/-! ## Functions and urls -/

theorem ident_token (env : Env) (first : Bool) {v r : Str} (hv : Word v) (hr : Apart r) (hp : r.head? ≠ some '(')
    (h3 : ¬ ((v = ['u'] ∨ v = ['U']) ∧ r.head? = some '+')) : ∃ n, env.token n first (Cssom.ident v ++ r) = some (.ident v, r) := by
  obtain ⟨n, e⟩ := ident_back env v r [] hr
  rw [value_word hv.2.1, List.nil_append] at e
  exact ⟨n, by rw [token_word env first v r n hv h3, identLike_back e hp]⟩

theorem paren_apart (r : Str) : Apart ('(' :: r) := by
  intro c hc
  cases hc
  exact ⟨by decide, by decide, by decide⟩

theorem function_token (env : Env) (first : Bool) {v : Str} (r : Str) (hv : Word v) (hu : v ≠ "url".toList) :
    ∃ n, env.token n first (Cssom.ident v ++ '(' :: r) = some (.function v, r) := by
  obtain ⟨n, e⟩ := ident_back env v ('(' :: r) [] (paren_apart r)
  rw [value_word hv.2.1, List.nil_append] at e
  refine ⟨n, ?_⟩
  rw [token_word env first v _ n hv (by simp), Env.identLike, e, Option.bind_some]
  show (if (decide (v = "url".toList) && _) = true then _ else _) = _
  rw [if_neg (by rw [decide_eq_false hu]; simp), if_pos (by simp), nextChar_cons (by decide)]

theorem plainUrl_ascii {c : Char} (h : PlainUrl c) : c.toNat < 128 := by
  have := h.2.1
  omega

theorem plainUrl_else {c : Char} (h : PlainUrl c) : c ≠ ')' ∧ c ≠ '"' ∧ c ≠ '\'' ∧ c ≠ '(' ∧ c ≠ '\\' ∧ c ≠ '\r' ∧ nonPrintable c = false ∧
    ¬ (Whitespace c ∨ c = '\r' ∨ c = '\x0B' ∨ c = '\x0C') := by
  have := plainUrl_ascii h
  exact ascii_all (P := fun c => (0x20 < c.toNat ∧ c.toNat < 0x7F ∧ c ∉ ['"', '\'', '(', ')', '\\']) → c ≠ ')' ∧ c ≠ '"' ∧ c ≠ '\'' ∧ c ≠ '(' ∧ c ≠ '\\' ∧ c ≠ '\r' ∧ nonPrintable c = false ∧
    ¬ (Whitespace c ∨ c = '\r' ∨ c = '\x0B' ∨ c = '\x0C')) (by decide +kernel) c this h

theorem plainUrl_ws {env : Env} {c : Char} (h : PlainUrl c) : env.isWs c = false := by
  rw [← Bool.not_eq_true, isWs_ascii env (plainUrl_ascii h)]
  exact (plainUrl_else h).2.2.2.2.2.2.2

theorem url_back (env : Env) (u r a : Str) (h : ∀ c ∈ u, PlainUrl c) : ∃ n, env.url n (u ++ ')' :: r) a = some (.url (a ++ u), r) := by
  induction u generalizing a with
  | nil => exact ⟨1, by rw [List.nil_append, Env.url, if_pos (by simp), nextChar_cons (by decide), List.append_nil]⟩
  | cons c u ih =>
    obtain ⟨n, e⟩ := ih (a ++ [c]) fun c hc => h c (by simp [hc])
    obtain ⟨h1, h2, h3, h4, h5, h6, h7, h8⟩ := plainUrl_else (h c (by simp))
    refine ⟨n + 1, ?_⟩
    rw [List.cons_append, Env.url, if_neg (by simp [h1]), if_neg (by simp), if_neg (by simp [plainUrl_ws (h c (by simp))]),
      if_neg (by simp [h2, h3, h4, h7]), if_neg (by simp [isEscape, h5]), nextChar_cons h6]
    simpa using e

theorem ident_mono' (env : Env) {n m : Nat} (hm : n ≤ m) {s a : Str} {x : Str × Str} (h : env.ident n s a = some x) : env.ident m s a = some x := by
  induction hm with
  | refl => exact h
  | step _ ih => exact ident_mono env _ _ _ _ ih

theorem url_mono' (env : Env) {n m : Nat} (hm : n ≤ m) {s a : Str} {x : Token × Str} (h : env.url n s a = some x) : env.url m s a = some x := by
  induction hm with
  | refl => exact h
  | step _ ih => exact url_mono env _ _ _ _ ih

theorem word_url : Word "url".toList ∧ Cssom.ident "url".toList = "url".toList := by
  refine ⟨⟨?_, ?_, ?_, ?_⟩, ?_⟩ <;> decide +kernel

theorem plain_url_token (env : Env) (first : Bool) {u : Str} (r : Str) (hu : ∀ c ∈ u, PlainUrl c) :
    ∃ n, env.token n first ("url(".toList ++ u ++ ')' :: r) = some (.url u, r) := by
  obtain ⟨n, e⟩ := ident_back env "url".toList ('(' :: (u ++ ')' :: r)) [] (paren_apart _)
  rw [value_word word_url.1.2.1, List.nil_append] at e
  obtain ⟨m, f⟩ := url_back env u r [] hu
  have hw : ∀ d q, u ++ ')' :: r = d :: q → env.isWs d = false ∧ d ≠ '"' ∧ d ≠ '\'' := by
    intro d q hq
    cases u with
    | nil =>
      cases hq
      exact ⟨by rw [← Bool.not_eq_true, isWs_ascii env (by decide)]; decide, by decide, by decide⟩
    | cons x u =>
      cases hq
      have hx := hu d (by simp)
      exact ⟨plainUrl_ws hx, (plainUrl_else hx).2.1, (plainUrl_else hx).2.2.1⟩
  have hskip : env.skipWs (u ++ ')' :: r) = u ++ ')' :: r := by
    unfold Env.skipWs
    cases hd : u ++ ')' :: r with
    | nil => rfl
    | cons d q => rw [List.dropWhile_cons_of_neg (by rw [(hw d q hd).1]; simp)]
  have hq : ¬ (decide ((u ++ ')' :: r)[0]? = some '"') || decide ((u ++ ')' :: r)[0]? = some '\'')) = true := by
    cases hd : u ++ ')' :: r with
    | nil => simp
    | cons d q => simp [(hw d q hd).2.1, (hw d q hd).2.2]
  have hs : "url(".toList ++ u ++ ')' :: r = Cssom.ident "url".toList ++ '(' :: (u ++ ')' :: r) := by
    rw [word_url.2]
    have : "url(".toList = "url".toList ++ ['('] := by decide +kernel
    rw [this]
    simp
  refine ⟨max n m, ?_⟩
  rw [hs, token_word env first _ _ _ word_url.1 (by simp), Env.identLike, ident_mono' env (Nat.le_max_left n m) e, Option.bind_some]
  show (if (decide ("url".toList = "url".toList) && _) = true then _ else _) = _
  rw [if_pos (by simp), nextChar_cons (by decide)]
  show (if (decide ((env.skipWs (u ++ ')' :: r))[0]? = some '"') || _) = true then _ else env.url _ (env.skipWs (env.skipWs (u ++ ')' :: r))) []) = _
  rw [hskip, if_neg hq, hskip, url_mono' env (Nat.le_max_right n m) f, List.nil_append]

/-! ## Signs -/

theorem ws_not (env : Env) {c : Char} (h : c.toNat < 128) (hw : ¬ (Whitespace c ∨ c = '\r' ∨ c = '\x0B' ∨ c = '\x0C')) : env.isWs c = false := by
  rw [← Bool.not_eq_true, isWs_ascii env h]
  exact hw

/-- the characters that begin the tokens that end a word -/
def endings : Str := " ,:;{})[]\"#*>~=|^$!/+.".toList

theorem endings_apart {c : Char} (h : c ∈ endings) : c.toNat < 128 ∧ ¬ IdentChar c ∧ c ≠ '\\' ∧ c ≠ '(' ∧ c ≠ '%' := by
  have : c.toNat < 128 := mem_small (by decide +kernel) h
  exact ascii_all (P := fun c => c ∈ endings → c.toNat < 128 ∧ ¬ IdentChar c ∧ c ≠ '\\' ∧ c ≠ '(' ∧ c ≠ '%') (by decide +kernel) c this h

theorem ends_head {u : Token} (hw : Writable u) (he : Ends u) : ∃ c q, spell u = c :: q ∧ c ∈ endings ∧ (c = '.' → u = .delim '.') ∧
    (c = '+' → u = .delim '+') := by
  cases u <;> simp only [Ends] at he
  case delim c =>
    refine ⟨c, [], rfl, ?_, fun h => by rw [h], fun h => by rw [h]⟩
    have : c ∈ signs := hw
    have h128 : c.toNat < 128 := mem_small (by decide +kernel) this
    exact ascii_all (P := fun c => c ∈ signs → c ≠ '-' → c ∈ endings) (by decide +kernel) c h128 this he
  all_goals exact ⟨_, _, rfl, by decide, fun h => absurd h (by decide), fun h => absurd h (by decide)⟩

/-- the first character of a written token -/
theorem spell_head (env : Env) {u : Token} (hw : Writable u) : ∃ c q, spell u = c :: q ∧ c.toNat < 128 ∧ (u ≠ .whitespace → env.isWs c = false) ∧
    (c = '*' → u = .delim '*') ∧ (¬ NumberLike u → env.isNum c = false) ∧ (¬ NumberLike u → u ≠ .delim '.' → c ≠ '.') := by
  have plain : ∀ {c : Char} {q : Str}, spell u = c :: q → c.toNat < 128 → ¬ (Whitespace c ∨ c = '\r' ∨ c = '\x0B' ∨ c = '\x0C') → c ≠ '*' → c ∉ digits → c ≠ '.' →
      ∃ c q, spell u = c :: q ∧ c.toNat < 128 ∧ (u ≠ .whitespace → env.isWs c = false) ∧
    (c = '*' → u = .delim '*') ∧ (¬ NumberLike u → env.isNum c = false) ∧ (¬ NumberLike u → u ≠ .delim '.' → c ≠ '.') := fun e h1 h2 h3 h4 h5 =>
    ⟨_, _, e, h1, fun _ => ws_not env h1 h2, fun h => absurd h h3, fun _ => num_not env h1 h4, fun _ _ => h5⟩
  have word : ∀ v r, Word v → spell u = Cssom.ident v ++ r → ∃ c q, spell u = c :: q ∧ c.toNat < 128 ∧ (u ≠ .whitespace → env.isWs c = false) ∧
    (c = '*' → u = .delim '*') ∧ (¬ NumberLike u → env.isNum c = false) ∧ (¬ NumberLike u → u ≠ .delim '.' → c ≠ '.') := by
    rintro v r ⟨hv, h0, ha, hm⟩ e
    rcases ident_shape hv with ⟨d, q, es, hd⟩ | ⟨x, w, q, ev, es, hx, hf⟩ | ⟨d, q, es, hd⟩ | ⟨x, w, q, ev, es, hx, hf⟩
    · rw [es] at e
      exact plain e (by decide) (by decide) (by decide) (by decide) (by decide)
    · rw [es] at e
      have hfx : x = w := by
        rw [hf, fixed, if_neg]
        rintro rfl
        exact h0 (by rw [ev]; simp)
      have h128 : x.toNat < 128 := by
        rw [hfx]
        exact ha w (by rw [ev]; simp)
      have := ascii_all (P := fun x => IdentStart x → ¬ (Whitespace x ∨ x = '\r' ∨ x = '\x0B' ∨ x = '\x0C') ∧ x ≠ '*' ∧ x ∉ digits ∧ x ≠ '.') (by decide +kernel) x h128 hx
      exact plain e h128 this.1 this.2.1 this.2.2.1 this.2.2.2
    · rw [es] at e
      exact plain e (by decide) (by decide) (by decide) (by decide) (by decide)
    · rw [es] at e
      exact plain e (by decide) (by decide) (by decide) (by decide) (by decide)
  have num : ∀ v r, Numeral v → spell u = v ++ r → NumberLike u → u ≠ .whitespace → ∃ c q, spell u = c :: q ∧ c.toNat < 128 ∧ (u ≠ .whitespace → env.isWs c = false) ∧
    (c = '*' → u = .delim '*') ∧ (¬ NumberLike u → env.isNum c = false) ∧ (¬ NumberLike u → u ≠ .delim '.' → c ≠ '.') := by
    intro v r hv e hn _
    have fin : ∀ {c q}, spell u = c :: q → c ∈ "0123456789.+-".toList → ∃ c q, spell u = c :: q ∧ c.toNat < 128 ∧ (u ≠ .whitespace → env.isWs c = false) ∧
    (c = '*' → u = .delim '*') ∧ (¬ NumberLike u → env.isNum c = false) ∧ (¬ NumberLike u → u ≠ .delim '.' → c ≠ '.') := by
      intro c q e hc
      have h128 : c.toNat < 128 := mem_small (by decide +kernel) hc
      have := ascii_all (P := fun x => x ∈ "0123456789.+-".toList → ¬ (Whitespace x ∨ x = '\r' ∨ x = '\x0B' ∨ x = '\x0C') ∧ x ≠ '*') (by decide +kernel) c h128 hc
      exact ⟨c, q, e, h128, fun _ => ws_not env h128 this.1, fun h => absurd h this.2, fun h => absurd hn h, fun h => absurd hn h⟩
    have dig : ∀ {d}, d ∈ digits → d ∈ "0123456789.+-".toList := fun {d} h =>
      ascii_all (P := fun d => d ∈ digits → d ∈ "0123456789.+-".toList) (by decide +kernel) d (digit_small h) h
    rcases numeral_cons hv with ⟨d, q, rfl, hd⟩ | ⟨d, q, rfl, hd⟩ | ⟨c, d, q, rfl, hc, hd⟩ | ⟨c, d, q, rfl, hc, hd⟩
    · exact fin e (dig hd)
    · exact fin e (by decide)
    · exact fin e (by rcases hc with rfl | rfl <;> decide)
    · exact fin e (by rcases hc with rfl | rfl <;> decide)
  cases u <;> simp only [Writable] at hw
  case ident v => exact word v [] hw (by simp [spell])
  case function v => exact word v ['('] hw.1 (by simp [spell])
  case hash v => exact plain rfl (by decide) (by decide) (by decide) (by decide) (by decide)
  case quotedString v => exact plain (c := '"') rfl (by decide) (by decide) (by decide) (by decide) (by decide)
  case url v => exact plain (c := 'u') (q := "rl(".toList ++ v ++ [')']) (by simp [spell]) (by decide) (by decide) (by decide) (by decide) (by decide)
  case number v => exact num v [] hw (by simp [spell]) trivial (by simp)
  case percentage v => exact num v ['%'] hw (by simp [spell]) trivial (by simp)
  case dimension v d => exact num v d hw.1 (by simp [spell]) trivial (by simp)
  case whitespace => exact ⟨' ', [], rfl, by decide, fun h => absurd rfl h, by decide, fun _ => num_not env (by decide) (by decide), fun _ _ => by decide⟩
  case delim c =>
    have h128 : c.toNat < 128 := mem_small (by decide +kernel) hw
    have := ascii_all (P := fun x => x ∈ signs → ¬ (Whitespace x ∨ x = '\r' ∨ x = '\x0B' ∨ x = '\x0C') ∧ x ∉ digits) (by decide +kernel) c h128 hw
    exact ⟨c, [], rfl, h128, fun _ => ws_not env h128 this.1, fun h => by rw [h], fun _ => num_not env h128 this.2, fun _ h e => h (by rw [e])⟩
  all_goals exact plain rfl (by decide) (by decide) (by decide) (by decide) (by decide)

/-- what has to hold of the text after a token -/
def After (env : Env) (s : Str) : Token → Prop
  | .ident v => Apart s ∧ s.head? ≠ some '(' ∧ ¬ ((v = ['u'] ∨ v = ['U']) ∧ s.head? = some '+')
  | .hash _ => Apart s
  | .dimension _ _ => Apart s
  | .number _ => Apart s ∧ s.head? ≠ some '.' ∧ s.head? ≠ some '%'
  | .whitespace => ∀ c, s.head? = some c → env.isWs c = false
  | .delim c => (c = '+' → ∀ d, s.head? = some d → env.isNum d = false ∧ d ≠ '.') ∧ (c = '-' → s = [] ∨ s.head? = some ' ') ∧
      (c = '.' → ∀ d, s.head? = some d → env.isNum d = false) ∧ (c = '/' → s.head? ≠ some '*')
  | _ => True

theorem after_nil (env : Env) (t : Token) : After env [] t := by
  cases t <;> simp [After, apart_nil]

theorem after_follows (env : Env) {t u : Token} (q : Str) (hu : Writable u) (h : Follows t u) : After env (spell u ++ q) t := by
  have apart : Ends u → Apart (spell u ++ q) ∧ (spell u ++ q).head? ≠ some '(' ∧ (spell u ++ q).head? ≠ some '%' ∧
      (u ≠ .delim '.' → (spell u ++ q).head? ≠ some '.') ∧ (u ≠ .delim '+' → (spell u ++ q).head? ≠ some '+') := by
    intro he
    obtain ⟨c, p, e, hc, h1, h2⟩ := ends_head hu he
    obtain ⟨k1, k2, k3, k4, k5⟩ := endings_apart hc
    rw [e]
    refine ⟨?_, by simpa using k4, by simpa using k5, ?_, ?_⟩
    · intro d hd
      cases hd
      exact ⟨k1, k2, k3⟩
    · intro hn hd
      cases hd
      exact hn (h1 rfl)
    · intro hn hd
      cases hd
      exact hn (h2 rfl)
  obtain ⟨c, p, e, g1, g2, g3, g4, g5⟩ := spell_head env hu
  cases t <;> simp only [After, Follows] at h ⊢
  case ident v =>
    obtain ⟨a1, a2, a3, a4, a5⟩ := apart h.1
    exact ⟨a1, a2, fun hv => a5 (h.2 hv.1) hv.2⟩
  case hash v => exact (apart h).1
  case dimension v d => exact (apart h).1
  case number v =>
    obtain ⟨a1, a2, a3, a4, a5⟩ := apart h.1
    exact ⟨a1, a4 h.2, a3⟩
  case whitespace =>
    rw [e]
    intro d hd
    cases hd
    exact g2 h
  case delim x =>
    obtain ⟨h1, h2, h3, h4⟩ := h
    rw [e]
    refine ⟨fun hx d hd => ?_, fun hx => ?_, fun hx d hd => ?_, fun hx hd => ?_⟩
    · cases hd
      exact ⟨g4 (h1 hx).1, g5 (h1 hx).1 (h1 hx).2⟩
    · have := h2 hx
      subst this
      cases e
      exact .inr rfl
    · cases hd
      exact g4 (h3 hx)
    · cases hd
      exact h4 hx (g3 rfl)

theorem comments_slash {s : Str} (h : s.head? ≠ some '*') : skipComments false ('/' :: s) = '/' :: s := by
  cases s with
  | nil => rfl
  | cons d s =>
    have : d ≠ '*' := by rintro rfl; exact h rfl
    rw [skipComments]
    simp [this]

/-- the signs that are nothing but signs -/
theorem dispatch_sign (env : Env) (n : Nat) {c : Char} (s : Str) (h : c ∈ "*>~=|^$!/".toList) : env.dispatch n (c :: s) = some (.delim c, s) := by
  have h128 : c.toNat < 128 := mem_small (by decide +kernel) h
  have hw := ascii_all (P := fun x => x ∈ "*>~=|^$!/".toList → ¬ (Whitespace x ∨ x = '\r' ∨ x = '\x0B' ∨ x = '\x0C') ∧ x ∉ digits ∧ isIdentStart x = false ∧
    x ∉ "\"'#)([]{},:;+.-<@\\uU".toList) (by decide +kernel) c h128 h
  obtain ⟨h1, h2, h3, h4⟩ := hw
  have ne : ∀ x ∈ "\"'#)([]{},:;+.-<@\\uU".toList, c ≠ x := by rintro x hx rfl; exact h4 hx
  rw [Env.dispatch, if_neg (by rw [ws_not env h128 h1]; simp), if_neg (by rintro (h | h) <;> exact ne _ (by decide) h), if_neg (ne _ (by decide)),
    if_neg (ne _ (by decide)), if_neg (ne _ (by decide)), if_neg (ne _ (by decide)), if_neg (ne _ (by decide)), if_neg (ne _ (by decide)),
    if_neg (ne _ (by decide)), if_neg (ne _ (by decide)), if_neg (ne _ (by decide)), if_neg (ne _ (by decide)), if_neg (ne _ (by decide)),
    if_neg (ne _ (by decide)), if_neg (ne _ (by decide)), if_neg (ne _ (by decide)), if_neg (ne _ (by decide)), if_neg (ne _ (by decide)),
    if_neg (by rw [num_not env h128 h2]; simp), if_neg (by rintro ⟨h | h, _⟩ <;> exact ne _ (by decide) h), if_neg (by rw [h3]; simp)]

theorem sign_token (env : Env) (first : Bool) {c : Char} {s : Str} (hc : c ∈ signs) (ha : After env s (.delim c)) (n : Nat) :
    env.token n first (c :: s) = some (.delim c, s) := by
  obtain ⟨a1, a2, a3, a4⟩ := ha
  have h128 : c.toNat < 128 := mem_small (by decide +kernel) hc
  by_cases hs : c ∈ "*>~=|^$!/".toList
  · by_cases hl : c = '/'
    · subst hl
      unfold Env.token
      have : (first && decide (('/' :: s)[0]? = some (Char.ofNat 0xFEFF))) = false := by
        have : ('/' :: s)[0]? ≠ some (Char.ofNat 0xFEFF) := by
          simp only [List.getElem?_cons_zero]
          decide
        rw [decide_eq_false this, Bool.and_false]
      simp only [this, Bool.false_eq_true, if_false]
      rw [comments_slash (a4 rfl)]
      exact dispatch_sign env n s hs
    · rw [token_ascii env n first _ h128 hl]
      exact dispatch_sign env n s hs
  · have hc' : c = '+' ∨ c = '-' ∨ c = '.' :=
      ascii_all (P := fun c => c ∈ signs → c ∉ "*>~=|^$!/".toList → c = '+' ∨ c = '-' ∨ c = '.') (by decide +kernel) c h128 hc hs
    rcases hc' with rfl | rfl | rfl
    · have hsd : env.signedDecimal ('+' :: s) = false := by
        cases s with
        | nil => simp [Env.signedDecimal]
        | cons d s =>
          have := a1 rfl d rfl
          simp [Env.signedDecimal, this]
      rw [token_ascii env n first _ (by decide) (by decide), Env.dispatch,
        if_neg (by rw [isWs_ascii env (by decide)]; decide), if_neg (by decide), if_neg (by decide), if_neg (by decide), if_neg (by decide),
        if_neg (by decide), if_neg (by decide), if_neg (by decide), if_neg (by decide), if_neg (by decide), if_neg (by decide), if_neg (by decide),
        if_pos rfl, if_neg (by rw [hsd]; simp)]
    · have hsd : env.signedDecimal ('-' :: s) = false ∧ lookSlice 3 ('-' :: s) ≠ "-->".toList ∧ startsIdent ('-' :: s) = false := by
        rcases a2 rfl with rfl | h
        · exact ⟨by simp [Env.signedDecimal], by decide, by decide⟩
        · obtain ⟨d, s, rfl⟩ : ∃ d q, s = d :: q := by
            cases s with
            | nil => cases h
            | cons d q => exact ⟨d, q, rfl⟩
          cases h
          refine ⟨by simp [Env.signedDecimal, num_not env (c := ' ') (by decide) (by decide)], by simp [lookSlice], ?_⟩
          simp [startsIdent, toChar, isEscape]
          decide
      rw [token_ascii env n first _ (by decide) (by decide), Env.dispatch,
        if_neg (by rw [isWs_ascii env (by decide)]; decide), if_neg (by decide), if_neg (by decide), if_neg (by decide), if_neg (by decide),
        if_neg (by decide), if_neg (by decide), if_neg (by decide), if_neg (by decide), if_neg (by decide), if_neg (by decide), if_neg (by decide),
        if_neg (by decide), if_neg (by decide), if_pos rfl, if_neg (by rw [hsd.1]; simp), if_neg hsd.2.1, if_neg (by rw [hsd.2.2]; simp)]
    · have hn : ¬ (s[0]?.any env.isNum = true) := by
        cases s with
        | nil => simp
        | cons d s => simp [a3 rfl d rfl]
      rw [token_ascii env n first _ (by decide) (by decide), Env.dispatch,
        if_neg (by rw [isWs_ascii env (by decide)]; decide), if_neg (by decide), if_neg (by decide), if_neg (by decide), if_neg (by decide),
        if_neg (by decide), if_neg (by decide), if_neg (by decide), if_neg (by decide), if_neg (by decide), if_neg (by decide), if_neg (by decide),
        if_neg (by decide), if_pos rfl, if_neg hn]

theorem space_token (env : Env) (first : Bool) {s : Str} (h : After env s .whitespace) (n : Nat) :
    env.token n first (' ' :: s) = some (.whitespace, s) := by
  rw [token_ascii env n first _ (by decide) (by decide), Env.dispatch, if_pos ((isWs_ascii env (by decide)).2 (by decide))]
  have : env.skipWs (' ' :: s) = s := by
    unfold Env.skipWs
    rw [List.dropWhile_cons_of_pos ((isWs_ascii env (by decide)).2 (by decide))]
    cases s with
    | nil => rfl
    | cons d s => rw [List.dropWhile_cons_of_neg (by rw [h d rfl]; simp)]
  rw [this]

theorem punct_token (env : Env) (first : Bool) {c : Char} {t : Token} (s : Str) (h : (c, t) ∈ punctuation) (n : Nat) :
    env.token n first (c :: s) = some (t, s) := by
  simp only [punctuation, List.mem_cons, Prod.mk.injEq, List.not_mem_nil, or_false] at h
  rcases h with ⟨rfl, rfl⟩ | ⟨rfl, rfl⟩ | ⟨rfl, rfl⟩ | ⟨rfl, rfl⟩ | ⟨rfl, rfl⟩ | ⟨rfl, rfl⟩ | ⟨rfl, rfl⟩ | ⟨rfl, rfl⟩ | ⟨rfl, rfl⟩ <;>
    (rw [token_ascii env n first _ (by decide) (by decide), Env.dispatch, if_neg (by rw [isWs_ascii env (by decide)]; decide), if_neg (by decide), if_neg (by decide)]; rfl)

/-- a written token is read back when what follows lets it -/
theorem token_back (env : Env) (first : Bool) {t : Token} {s : Str} (hw : Writable t) (ha : After env s t) :
    ∃ n, env.token n first (spell t ++ s) = some (t, s) := by
  cases t <;> simp only [Writable] at hw
  case ident v => exact ident_token env first hw ha.1 ha.2.1 ha.2.2
  case function v =>
    obtain ⟨n, e⟩ := function_token env first s hw.1 hw.2
    exact ⟨n, by simpa [spell] using e⟩
  case hash v =>
    have := C96_hashes env first v s hw.1 ha _ (Nat.lt_succ_self _)
    rw [value_word hw.2] at this
    exact ⟨_, this⟩
  case quotedString v =>
    have := C96_strings env first v s _ (Nat.lt_succ_self _)
    rw [value_word hw] at this
    exact ⟨_, this⟩
  case url u =>
    obtain ⟨n, e⟩ := plain_url_token env first s hw
    exact ⟨n, by rw [← e, spell, List.append_assoc _ [')']]; rfl⟩
  case number v => exact ⟨0, number_token env first hw ha.1 ha.2.1 ha.2.2 0⟩
  case percentage v => exact ⟨0, by rw [← percentage_token env first s hw 0, spell, List.append_assoc]; rfl⟩
  case dimension v u => exact dimension_token env first hw.1 hw.2 ha
  case whitespace => exact ⟨0, space_token env first ha 0⟩
  case delim c => exact ⟨0, sign_token env first hw ha 0⟩
  all_goals exact ⟨0, punct_token env first s (by decide) 0⟩

theorem writable_not_eof {t : Token} (h : Writable t) : t ≠ .eof := by rintro rfl; exact h

theorem text_back (env : Env) (first : Bool) (ts : List Token) (h : WritableAll ts) : Yields env first (text ts) (ts ++ [.eof]) := by
  induction ts generalizing first with
  | nil => exact .eof (n := 0) (r := []) (by cases first <;> rfl)
  | cons t ts ih =>
    have hw : Writable t := by
      cases ts with
      | nil => exact h
      | cons u r => exact h.1
    have ha : After env (text ts) t := by
      cases ts with
      | nil => exact after_nil env t
      | cons u r =>
        have hu : Writable u := by
          cases r with
          | nil => exact h.2.2
          | cons _ _ => exact h.2.2.1
        exact after_follows env (text r) hu h.2.1
    have hts : WritableAll ts := by
      cases ts with
      | nil => trivial
      | cons u r => exact h.2.2
    obtain ⟨n, e⟩ := token_back env first hw ha
    exact .next e (writable_not_eof hw) (ih false hts)

theorem yields_unique {env : Env} {first : Bool} {s : Str} {ts us : List Token} (h : Yields env first s ts) (h' : Yields env first s us) : ts = us := by
  induction h generalizing us with
  | eof h =>
    cases h' with
    | eof _ => rfl
    | next h' ht _ =>
      cases token_unique env h h'
      exact absurd rfl ht
  | next h ht _ ih =>
    cases h' with
    | eof h' =>
      cases token_unique env h h'
      exact absurd rfl ht
    | next h' _ hs' =>
      cases token_unique env h h'
      rw [ih hs']

end Verif.CssTok
