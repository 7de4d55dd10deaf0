import Verif.Grammar.PropsSound

/-!
# C100: of several ways to match, the one that takes most
-/
namespace Verif.Grammar
open Verif

/-- the better of two -/
def better (best : Option (List Value)) (r : List Value) : Option (List Value) :=
  match best with
  | some b => if r.length < b.length then some r else some b
  | Option.none => some r

theorem oneOf_least : ∀ (ps : List Part) (best : Option (List Value)) (input : List Value), input ≠ [] →
    (∀ p ∈ ps, p.run input = .fail ∨ ∃ r, p.run input = .ok r) →
    (best = Option.none ∧ (∀ p ∈ ps, p.run input = .fail) ∧ oneOf ps best input = .fail) ∨
    ∃ r, oneOf ps best input = .ok r ∧ (best = some r ∨ ∃ p ∈ ps, p.run input = .ok r) ∧
      (∀ b, best = some b → r.length ≤ b.length) ∧ ∀ p ∈ ps, ∀ r', p.run input = .ok r' → r.length ≤ r'.length := by
  intro ps
  induction ps with
  | nil =>
    intro best input _ _
    cases best with
    | none => exact .inl ⟨rfl, (fun p hp => by cases hp), rfl⟩
    | some b => exact .inr ⟨b, rfl, .inl rfl, (fun b' h => by cases h; exact Nat.le_refl _), fun p hp => by cases hp⟩
  | cons p ps ih =>
    intro best input hne hps
    have hie : input.isEmpty = false := by
      cases h : input.isEmpty with
      | false => rfl
      | true => exact absurd (List.isEmpty_iff.1 h) hne
    have hps' : ∀ q ∈ ps, q.run input = .fail ∨ ∃ r, q.run input = .ok r := fun q hq => hps q (List.mem_cons_of_mem _ hq)
    unfold oneOf
    simp only [hie, Bool.false_eq_true, if_false]
    rcases hps p (by simp) with hr | ⟨r, hr⟩
    · simp only [hr]
      rcases ih best input hne hps' with ⟨h1, h2, h3⟩ | ⟨r, h1, h2, h3, h4⟩
      · refine .inl ⟨h1, ?_, h3⟩
        intro q hq
        rcases List.mem_cons.1 hq with rfl | hq
        · exact hr
        · exact h2 q hq
      · refine .inr ⟨r, h1, ?_, h3, ?_⟩
        · rcases h2 with h2 | ⟨q, hq, hqr⟩
          · exact .inl h2
          · exact .inr ⟨q, List.mem_cons_of_mem _ hq, hqr⟩
        · intro q hq r' hr'
          rcases List.mem_cons.1 hq with rfl | hq
          · rw [hr] at hr'; cases hr'
          · exact h4 q hq r' hr'
    · simp only [hr]
      refine .inr ?_
      obtain ⟨b', hb', hle, hor, hbest⟩ : ∃ b', better best r = some b' ∧ b'.length ≤ r.length ∧ (best = some b' ∨ r = b') ∧ ∀ b, best = some b → b'.length ≤ b.length := by
        cases best with
        | none => exact ⟨r, rfl, Nat.le_refl _, .inr rfl, fun b h => by cases h⟩
        | some b =>
          by_cases hlt : r.length < b.length
          · exact ⟨r, if_pos hlt, Nat.le_refl _, .inr rfl, fun b' h => by cases h; omega⟩
          · exact ⟨b, if_neg hlt, by omega, .inl rfl, fun b' h => by cases h; exact Nat.le_refl _⟩
      show ∃ r_1, oneOf ps (better best r) input = Res.ok r_1 ∧ _
      rw [hb']
      rcases ih (some b') input hne hps' with ⟨h1, _⟩ | ⟨r1, h1, h2, h3, h4⟩
      · cases h1
      · have := h3 b' rfl
        refine ⟨r1, h1, ?_, fun b hb => Nat.le_trans this (hbest b hb), ?_⟩
        · rcases h2 with h2 | ⟨q, hq, hqr⟩
          · cases h2
            rcases hor with h | rfl
            · exact .inl h
            · exact .inr ⟨p, by simp, hr⟩
          · exact .inr ⟨q, List.mem_cons_of_mem _ hq, hqr⟩
        · intro q hq r' hr'
          rcases List.mem_cons.1 hq with rfl | hq
          · rw [hr] at hr'; cases hr'; omega
          · exact h4 q hq r' hr'

theorem parts_mem {env : Env} {n : Nat} : ∀ {cs : List Component} {p : Part}, p ∈ parts env n cs → ∃ c ∈ cs, p.run = c.run env n
  | c :: cs, p, h => by
    unfold parts at h
    rcases List.mem_cons.1 h with rfl | h
    · exact ⟨c, by simp, rfl⟩
    · obtain ⟨c', hc, hr⟩ := parts_mem h
      exact ⟨c', List.mem_cons_of_mem _ hc, hr⟩

theorem mem_runs {env : Env} {n : Nat} : ∀ {cs : List Component} {c : Component}, c ∈ cs → ∃ p ∈ parts env n cs, p.run = c.run env n
  | c' :: cs, c, h => by
    unfold parts
    rcases List.mem_cons.1 h with rfl | h
    · exact ⟨_, List.mem_cons_self .., rfl⟩
    · obtain ⟨p, hp, hr⟩ := mem_runs h
      exact ⟨p, List.mem_cons_of_mem _ hp, hr⟩

theorem group_once (env : Env) (n : Nat) (comb : Comb) (cs : List Component) (input : List Value) (hne : input ≠ []) :
    (Component.group comb cs [.once]).run env (n + 1) input = comb.run (parts env (n + 1) cs) input := by
  have hie : input.isEmpty = false := by
    cases h : input.isEmpty with
    | false => rfl
    | true => exact absurd (List.isEmpty_iff.1 h) hne
  show inner [.once] (comb.run (parts env (n + 1) cs)) (n + 1) 0 input = _
  unfold inner
  simp only [hie, Bool.false_eq_true, if_false]
  cases comb.run (parts env (n + 1) cs) input <;> rfl

/-- there are rounds enough for all of them -/
theorem answers_all {env : Env} {input : List Value} : ∀ (cs : List Component),
    (∀ c ∈ cs, Answers env c input .yes ∨ Answers env c input .no) →
    ∃ N, ∀ n ≥ N, ∀ c ∈ cs, (Answers env c input .yes ∧ verdict env n [c] input = .yes) ∨ (Answers env c input .no ∧ verdict env n [c] input = .no)
  | [], _ => ⟨0, fun n _ c hc => by cases hc⟩
  | c :: cs, h => by
    obtain ⟨N, hN⟩ := answers_all cs fun c hc => h c (List.mem_cons_of_mem _ hc)
    obtain ⟨M, hM⟩ : ∃ M, ∀ n ≥ M, (Answers env c input .yes ∧ verdict env n [c] input = .yes) ∨ (Answers env c input .no ∧ verdict env n [c] input = .no) := by
      rcases h c (by simp) with h' | h'
      · obtain ⟨M, hM⟩ := h'
        exact ⟨M, fun n hn => .inl ⟨⟨M, hM⟩, hM n hn⟩⟩
      · obtain ⟨M, hM⟩ := h'
        exact ⟨M, fun n hn => .inr ⟨⟨M, hM⟩, hM n hn⟩⟩
    refine ⟨max N M, fun n hn c' hc' => ?_⟩
    rcases List.mem_cons.1 hc' with rfl | hc'
    · exact hM n (by omega)
    · exact hN n (by omega) c' hc'

/-- C100, for the choice `a | b | …`, whatever the alternatives: where each of them gets an answer, the choice accepts a value (that is
not empty) if and only if one of them does. -/
theorem C100_alternatives (env : Env) (cs : List Component) (input : List Value) (hne : input ≠ [])
    (h : ∀ c ∈ cs, Answers env c input .yes ∨ Answers env c input .no) (hw : ¬ AlwaysValid input) :
    (Answers env (.group .exactlyOne cs [.once]) input .yes ↔ ∃ c ∈ cs, Answers env c input .yes) := by
  obtain ⟨N, hN⟩ := answers_all cs h
  have hwide : ¬ (isWide input || hasSubsts input || isVendor input) = true := fun h => hw ((always_iff _).1 h)
  have hrun : ∀ c ∈ cs, (Answers env c input .yes ∧ c.run env (N + 1) input = .ok []) ∨
      (Answers env c input .no ∧ (c.run env (N + 1) input = .fail ∨ ∃ x xs, c.run env (N + 1) input = .ok (x :: xs))) := by
    intro c hc
    rcases hN (N + 1) (by omega) c hc with ⟨h1, h2⟩ | ⟨h1, h2⟩ <;> rw [verdict_eq, if_neg hwide] at h2
    · refine .inl ⟨h1, ?_⟩
      cases hr : c.run env (N + 1) input with
      | ok r => cases r with
        | nil => rfl
        | cons x xs => rw [hr] at h2; cases h2
      | _ => all_goals rw [hr] at h2; cases h2
    · refine .inr ⟨h1, ?_⟩
      cases hr : c.run env (N + 1) input with
      | ok r => cases r with
        | nil => rw [hr] at h2; cases h2
        | cons x xs => exact .inr ⟨x, xs, rfl⟩
      | fail => exact .inl rfl
      | _ => all_goals rw [hr] at h2; cases h2
  have hps : ∀ p ∈ parts env (N + 1) cs, p.run input = .fail ∨ ∃ r, p.run input = .ok r := by
    intro p hp
    obtain ⟨c, hc, hpr⟩ := parts_mem hp
    rw [hpr]
    rcases hrun c hc with ⟨_, h⟩ | ⟨_, h | ⟨x, xs, h⟩⟩
    · exact .inr ⟨_, h⟩
    · exact .inl h
    · exact .inr ⟨_, h⟩
  have hg : verdict env (N + 1) [.group .exactlyOne cs [.once]] input = (match oneOf (parts env (N + 1) cs) Option.none input with
      | .ok [] => .yes
      | .ok (_ :: _) => .no
      | .fail => .no
      | .panic => .panic
      | .cut => .cut) := by
    rw [verdict_eq, if_neg hwide, group_once env N .exactlyOne cs input hne]; rfl
  constructor
  · rintro ⟨M, hM⟩
    rcases oneOf_least (parts env (N + 1) cs) Option.none input hne hps with ⟨_, _, h3⟩ | ⟨r, h1, h2, _⟩
    · rw [h3] at hg
      have := verdict_le env (Nat.le_max_left (N + 1) M) (.group .exactlyOne cs [.once]) input (by rw [hg]; decide)
      rw [hM _ (by omega), hg] at this; cases this
    · rcases h2 with h2 | ⟨p, hp, hpr⟩
      · cases h2
      · obtain ⟨c, hc, hcr⟩ := parts_mem hp
        rw [hcr] at hpr
        rcases hrun c hc with ⟨h, _⟩ | ⟨_, h | ⟨x, xs, h⟩⟩
        · exact ⟨c, hc, h⟩
        · rw [h] at hpr; cases hpr
        · rw [h] at hpr; cases hpr
          rw [h1] at hg
          have hg : verdict env (N + 1) [.group .exactlyOne cs [.once]] input = .no := hg
          have := verdict_le env (Nat.le_max_left (N + 1) M) (.group .exactlyOne cs [.once]) input (by rw [hg]; decide)
          rw [hM _ (by omega), hg] at this; cases this
  · rintro ⟨c, hc, hy⟩
    have hcr : c.run env (N + 1) input = .ok [] := by
      rcases hrun c hc with ⟨_, h⟩ | ⟨hn, _⟩
      · exact h
      · obtain ⟨A, hA⟩ := hy
        obtain ⟨B, hB⟩ := hn
        have := hA (max A B) (by omega)
        rw [hB _ (by omega)] at this; cases this
    obtain ⟨p, hp, hpr⟩ := mem_runs (env := env) (n := N + 1) hc
    rcases oneOf_least (parts env (N + 1) cs) Option.none input hne hps with ⟨_, h2, _⟩ | ⟨r, h1, _, _, h4⟩
    · have := h2 p hp
      rw [hpr, hcr] at this; cases this
    · have := h4 p hp [] (by rw [hpr, hcr])
      have hr : r = [] := List.length_eq_zero_iff.1 (by simpa using this)
      rw [hr] at h1
      rw [h1] at hg
      exact answers_of hg (by decide)

/-- `a | a b` and the value `a b`, of which the first alternative takes only a part -/
example (env : Env) :
    let ab : Component := .group .juxtaposition [kw "a", kw "b"] [.once]
    (Answers env (kw "a") [word "a", word "b"] .no ∧ Answers env ab [word "a", word "b"] .yes) ∧ ¬ AlwaysValid [word "a", word "b"] :=
  ⟨⟨answers_of (n := 3) rfl (by simp), answers_of (n := 3) rfl (by simp)⟩, fun h => by have := (always_iff _).2 h; cases this⟩

theorem bestAttempt_least {f : Nat → Res} : ∀ (os : List Nat) (best : Option (List Value)) (r : List Value),
    bestAttempt f os best = .ok r → (∀ b, best = some b → r.length ≤ b.length) ∧ ∀ o ∈ os, ∀ r', f o = .ok r' → r.length ≤ r'.length := by
  intro os
  induction os with
  | nil =>
    intro best r e
    unfold bestAttempt at e
    cases best with
    | none => cases e
    | some b => cases e; exact ⟨(fun b' h => by cases h; exact Nat.le_refl _), fun o ho => by cases ho⟩
  | cons o os ih =>
    intro best r e
    unfold bestAttempt at e
    cases hf : f o with
    | ok r1 =>
      rw [hf] at e
      simp only at e
      by_cases hemp : r1.isEmpty = true
      · rw [if_pos hemp] at e
        obtain rfl : r1 = r := by cases e; rfl
        have h0 : r1.length = 0 := by rw [List.isEmpty_iff.1 hemp]; rfl
        exact ⟨fun b _ => by omega, fun o' _ r' _ => by omega⟩
      · rw [if_neg hemp] at e
        obtain ⟨h1, h2⟩ := ih _ _ e
        have hb : r.length ≤ r1.length ∧ ∀ b, best = some b → r.length ≤ b.length := by
          cases best with
          | none => exact ⟨h1 r1 rfl, fun b h => by cases h⟩
          | some b =>
            by_cases hlt : r1.length < b.length
            · have := h1 r1 (by simp only [if_pos hlt])
              exact ⟨this, fun b' h => by cases h; omega⟩
            · have := h1 b (by simp only [if_neg hlt])
              exact ⟨by omega, fun b' h => by cases h; exact this⟩
        refine ⟨hb.2, ?_⟩
        intro o' ho' r' hr'
        rcases List.mem_cons.1 ho' with rfl | ho'
        · rw [hf] at hr'; cases hr'; exact hb.1
        · exact h2 o' ho' r' hr'
    | fail =>
      rw [hf] at e
      obtain ⟨h1, h2⟩ := ih _ _ e
      refine ⟨h1, ?_⟩
      intro o' ho' r' hr'
      rcases List.mem_cons.1 ho' with rfl | ho'
      · rw [hf] at hr'; cases hr'
      · exact h2 o' ho' r' hr'
    | panic => rw [hf] at e; cases e
    | cut => rw [hf] at e; cases e

/-- C100, for `a && b && …` and `a || b || …`: of the orders that are tried, with each of the components first, the one that takes most
counts. -/
theorem C100_longest_order (env : Env) (n : Nat) (cs : List Component) (input r : List Value) (hne : input ≠ []) :
    ((Component.group .allAnyOrder cs [.once]).run env (n + 1) input = .ok r →
      ∀ a b, cs = a ++ b → b ≠ [] → ∀ r', allAnyPass (parts env (n + 1) (b ++ a)) input = .ok r' → r.length ≤ r'.length) ∧
    ((Component.group .atLeastOneAnyOrder cs [.once]).run env (n + 1) input = .ok r →
      ∀ a b, cs = a ++ b → b ≠ [] → ∀ r', oneAnyPass (parts env (n + 1) (b ++ a)) input = .ok r' → r.length ≤ r'.length) := by
  have hparts : ∀ (x y : List Component), parts env (n + 1) (x ++ y) = parts env (n + 1) x ++ parts env (n + 1) y := by
    intro x y
    induction x with
    | nil => rfl
    | cons c x ih =>
      show _ :: parts env (n + 1) (x ++ y) = _ :: (parts env (n + 1) x ++ parts env (n + 1) y)
      rw [ih]
  have hlen : ∀ x : List Component, (parts env (n + 1) x).length = x.length := by
    intro x
    induction x with
    | nil => rfl
    | cons c x ih => show (parts env (n + 1) x).length + 1 = _; rw [ih]; rfl
  have hrot : ∀ a b : List Component, b ≠ [] → a.length ∈ offsets (parts env (n + 1) (a ++ b)) ∧
      rotated (parts env (n + 1) (a ++ b)) a.length = parts env (n + 1) (b ++ a) := by
    intro a b hb
    have hbl : 0 < b.length := List.length_pos_iff.2 hb
    refine ⟨?_, ?_⟩
    · unfold offsets
      rw [hlen, List.mem_range, List.length_append]
      omega
    · unfold rotated
      rw [hparts, hparts]
      have := hlen a
      rw [← this, List.drop_left, List.take_left]
  constructor
  · intro h a b hab hb r' hr'
    rw [group_once env n .allAnyOrder cs input hne, hab] at h
    obtain ⟨h1, h2⟩ := hrot a b hb
    exact (bestAttempt_least _ _ _ h).2 a.length h1 r' (by rw [h2]; exact hr')
  · intro h a b hab hb r' hr'
    rw [group_once env n .atLeastOneAnyOrder cs input hne, hab] at h
    obtain ⟨h1, h2⟩ := hrot a b hb
    exact (bestAttempt_least _ _ _ h).2 a.length h1 r' (by rw [h2]; exact hr')

/-- `a? || [a b]` before a `c`: with the second first, all but the `c` is taken -/
example (env : Env) :
    let g : Component := .group .atLeastOneAnyOrder [kw "a", .group .juxtaposition [kw "a", kw "b"] [.once]] [.once]
    g.run env 3 [word "a", word "b", word "c"] = .ok [word "c"] := rfl

end Verif.Grammar
