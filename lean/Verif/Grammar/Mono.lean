import Verif.Grammar.Lemmas

/-!
# More rounds change nothing but a result that has been cut short
-/

namespace Verif.Grammar
open Verif

/-- The second gives what the first gives, if that has not been cut short. -/
def Le (m m' : Matcher) : Prop := ∀ input, m input ≠ .cut → m' input = m input

theorem inner_le {ms : List Mult} {m m' : Matcher} (h : Le m m') :
    ∀ n n' cnt input, n ≤ n' → inner ms m n cnt input ≠ .cut → inner ms m' n' cnt input = inner ms m n cnt input := by
  intro n
  induction n with
  | zero => intro n' cnt input _ e; simp [inner] at e
  | succ n ih =>
    intro n' cnt input hn e
    obtain ⟨k, rfl⟩ : ∃ k, n' = k + 1 := ⟨n' - 1, by omega⟩
    have hk : n ≤ k := by omega
    unfold inner at e ⊢
    by_cases hi : input.isEmpty = true
    · simp [hi]
    · simp only [hi, Bool.false_eq_true, if_false] at e ⊢
      have hm : m input ≠ .cut := by
        intro hc
        simp [hc] at e
      rw [h input hm]
      cases hr : m input with
      | fail => rfl
      | panic => rfl
      | cut => rfl
      | ok r =>
        simp only [hr] at e ⊢
        cases hf : fulfil ms (cnt + 1) with
        | notYet => simp only [hf] at e ⊢; exact ih _ _ _ hk e
        | done => rfl
        | never => rfl
        | more =>
          simp only [hf] at e ⊢
          by_cases hre : r.isEmpty = true
          · simp [hre]
          · simp only [hre, Bool.false_eq_true, if_false] at e ⊢
            exact ih _ _ _ hk e

theorem csvLoop_le {a b : Nat} {m m' : Matcher} (h : Le m m') :
    ∀ n n' cnt input, n ≤ n' → csvLoop a b m n cnt input ≠ .cut → csvLoop a b m' n' cnt input = csvLoop a b m n cnt input := by
  intro n
  induction n with
  | zero => intro n' cnt input _ e; simp [csvLoop] at e
  | succ n ih =>
    intro n' cnt input hn e
    obtain ⟨k, rfl⟩ : ∃ k, n' = k + 1 := ⟨n' - 1, by omega⟩
    have hk : n ≤ k := by omega
    unfold csvLoop at e ⊢
    have hm : m input ≠ .cut := by
      intro hc
      simp [hc] at e
    rw [h input hm]
    cases hr : m input with
    | fail => rfl
    | panic => rfl
    | cut => rfl
    | ok r =>
      simp only [hr] at e ⊢
      split at e
      · rename_i r'
        by_cases hre : r'.isEmpty = true
        · simp [hre]
        · simp only [hre, Bool.false_eq_true, if_false] at e ⊢
          exact ih _ _ _ hk e
      · rfl

theorem component_le {ms : List Mult} {m m' : Matcher} (h : Le m m') {n n' : Nat} (hn : n ≤ n') :
    Le (component ms m n) (component ms m' n') := by
  intro input e
  unfold component at e ⊢
  split at e
  · exact inner_le h _ _ _ _ hn e
  · exact csvLoop_le (fun i e => inner_le h _ _ _ _ hn e) _ _ _ _ hn e

/-- the same component with more rounds -/
def PartLe (p p' : Part) : Prop := p'.ms = p.ms ∧ p'.comma = p.comma ∧ Le p.run p'.run

theorem oneOf_le {ps ps' : List Part} (h : List.Forall₂ PartLe ps ps') : ∀ (best : Option (List Value)),
    Le (oneOf ps best) (oneOf ps' best) := by
  induction h with
  | nil => intro best input _; rfl
  | @cons p p' ps ps' hp _ ih =>
    intro best input e
    unfold oneOf at e ⊢
    by_cases hi : input.isEmpty = true
    · simp [hi]
    · simp only [hi, Bool.false_eq_true, if_false] at e ⊢
      have hm : p.run input ≠ .cut := by
        intro hc
        simp [hc] at e
      rw [hp.2.2 input hm]
      cases hr : p.run input with
      | fail => simp only [hr] at e ⊢; exact ih _ _ e
      | panic => rfl
      | cut => rfl
      | ok r => simp only [hr] at e ⊢; exact ih _ _ e

/-- the same outcome with more rounds -/
inductive ClaimLe : Claim → Claim → Prop
  | nobody : ClaimLe .nobody .nobody
  | claimed (r : List Value) {ps ps' : List Part} : List.Forall₂ PartLe ps ps' → ClaimLe (.claimed r ps) (.claimed r ps')
  | panic : ClaimLe .panic .panic
  | cut (c : Claim) : ClaimLe .cut c

theorem scan_le {need : Bool} {input : List Value} {ps ps' : List Part} (h : List.Forall₂ PartLe ps ps') :
    ∀ (before before' : List Part), List.Forall₂ PartLe before before' →
      ClaimLe (scan need input before ps) (scan need input before' ps') := by
  induction h with
  | nil => intro b b' _; exact .nobody
  | @cons p p' ps ps' hp hps ih =>
    intro b b' hb
    unfold scan
    by_cases hc : p.run input = .cut
    · simp only [hc]; exact .cut _
    · have step : List.Forall₂ PartLe (b ++ [p]) (b' ++ [p']) := List.rel_append hb (.cons hp .nil)
      rw [hp.2.2 input hc, hp.1]
      cases hr : p.run input with
      | fail => exact ih _ _ step
      | panic => exact .panic
      | cut => exact .cut _
      | ok r =>
        simp only
        split
        · exact .claimed _ (List.rel_append hb hps)
        · exact ih _ _ step

/-- the same result with more rounds -/
inductive PassLe : Except Res (List Value × List Part) → Except Res (List Value × List Part) → Prop
  | ok (r : List Value) {ps ps' : List Part} : List.Forall₂ PartLe ps ps' → PassLe (.ok (r, ps)) (.ok (r, ps'))
  | panic : PassLe (.error .panic) (.error .panic)
  | cut (c : Except Res (List Value × List Part)) : PassLe (.error .cut) c

theorem pass_le {need : Bool} : ∀ (k : Nat) {ps ps' : List Part} (input : List Value), List.Forall₂ PartLe ps ps' →
    PassLe (pass need k ps input) (pass need k ps' input) := by
  intro k
  induction k with
  | zero => intro ps ps' input h; exact .ok _ h
  | succ k ih =>
    intro ps ps' input h
    unfold pass
    split
    · exact .ok _ h
    · have hs := scan_le (need := need) (input := input) h [] [] .nil
      revert hs
      generalize scan need input [] ps = x
      generalize scan need input [] ps' = y
      intro hs
      cases hs with
      | nobody => exact .ok _ h
      | claimed r h' => exact ih _ h'
      | panic => exact .panic
      | cut c => exact .cut _

theorem all_le {ps ps' : List Part} (h : List.Forall₂ PartLe ps ps') :
    (ps'.all fun p => omissible p.ms) = ps.all fun p => omissible p.ms := by
  induction h with
  | nil => rfl
  | cons hp _ ih => simp [ih, hp.1]

theorem oneAnyPass_le {ps ps' : List Part} (h : List.Forall₂ PartLe ps ps') : Le (oneAnyPass ps) (oneAnyPass ps') := by
  intro input e
  have hl := h.length_eq
  unfold oneAnyPass at e ⊢
  rw [← hl]
  have hp := pass_le (need := false) ps.length input h
  revert hp e
  generalize pass false ps.length ps input = x
  generalize pass false ps.length ps' input = y
  intro e hp
  cases hp with
  | ok r h' => simp [h'.length_eq]
  | panic => rfl
  | cut c => simp at e

theorem allAnyPass_le {ps ps' : List Part} (h : List.Forall₂ PartLe ps ps') : Le (allAnyPass ps) (allAnyPass ps') := by
  intro input e
  have hl := h.length_eq
  unfold allAnyPass at e ⊢
  rw [← hl]
  have hp := pass_le (need := true) ps.length input h
  revert hp e
  generalize pass true ps.length ps input = x
  generalize pass true ps.length ps' input = y
  intro e hp
  cases hp with
  | ok r h' => simp only [all_le h']
  | panic => rfl
  | cut c => simp at e

theorem bestAttempt_le {f g : Nat → Res} (h : ∀ o, f o ≠ .cut → g o = f o) : ∀ (os : List Nat) (best : Option (List Value)),
    bestAttempt f os best ≠ .cut → bestAttempt g os best = bestAttempt f os best := by
  intro os
  induction os with
  | nil => intro best _; rfl
  | cons o os ih =>
    intro best e
    unfold bestAttempt at e ⊢
    have hm : f o ≠ .cut := by
      intro hc
      simp [hc] at e
    rw [h o hm]
    cases hr : f o with
    | fail => simp only [hr] at e ⊢; exact ih _ e
    | panic => rfl
    | cut => rfl
    | ok r =>
      simp only [hr] at e ⊢
      by_cases hre : r.isEmpty = true
      · simp [hre]
      · simp only [hre, Bool.false_eq_true, if_false] at e ⊢
        exact ih _ e

theorem rotated_le {ps ps' : List Part} (h : List.Forall₂ PartLe ps ps') (o : Nat) :
    List.Forall₂ PartLe (rotated ps o) (rotated ps' o) :=
  List.rel_append (List.forall₂_drop o h) (List.forall₂_take o h)

theorem juxtapose_le {ps ps' : List Part} (h : List.Forall₂ PartLe ps ps') : ∀ prev : Bool,
    Le (juxtapose ps prev) (juxtapose ps' prev) := by
  induction h with
  | nil => intro prev input _; rfl
  | @cons p p' ps ps' hp hps ih =>
    intro prev input e
    unfold juxtapose at e ⊢
    have hm : p.run input ≠ .cut := by
      intro hc
      simp [hc] at e
    have hemp : ps'.isEmpty = ps.isEmpty := by cases hps <;> rfl
    rw [hp.2.2 input hm, hp.2.1, all_le hps, hemp]
    cases hr : p.run input with
    | panic => rfl
    | cut => rfl
    | ok r => simp only [hr] at e ⊢; exact ih _ _ e
    | fail =>
      simp only [hr] at e ⊢
      by_cases hc : p.comma = true
      · simp only [hc, if_true] at e ⊢
        cases prev with
        | false => simp only [Bool.not_false, if_true] at e ⊢; exact ih _ _ e
        | true => rfl
      · simp [hc]

theorem comb_le (comb : Comb) {ps ps' : List Part} (h : List.Forall₂ PartLe ps ps') : Le (comb.run ps) (comb.run ps') := by
  intro input e
  have ho : offsets ps' = offsets ps := by unfold offsets; rw [h.length_eq]
  cases comb with
  | juxtaposition => exact juxtapose_le h _ _ e
  | exactlyOne => exact oneOf_le h _ _ e
  | allAnyOrder =>
    simp only [Comb.run, ho] at e ⊢
    exact bestAttempt_le (fun o e => allAnyPass_le (rotated_le h o) _ e) _ _ e
  | atLeastOneAnyOrder =>
    simp only [Comb.run, ho] at e ⊢
    exact bestAttempt_le (fun o e => oneAnyPass_le (rotated_le h o) _ e) _ _ e

theorem call_le {name : Str} {m m' : Matcher} (h : Le m m') : Le (call name m) (call name m') := by
  intro input e
  unfold call at e ⊢
  split at e
  · split at e
    · rename_i c vs r hn
      have hm : m vs ≠ .cut := by
        intro hc
        simp [hc] at e
      simp only [hn, if_true, h vs hm]
    · rename_i hn
      simp [hn]
  · rfl

theorem le_refl (m : Matcher) : Le m m := fun _ _ => rfl

mutual
theorem run_le (env : Env) {n n' : Nat} (hn : n ≤ n') : ∀ c : Component, Le (c.run env n) (c.run env n')
  | .leaf l ms => by
    unfold Component.run
    exact component_le (le_refl _) hn
  | .function name args ms => by
    unfold Component.run
    exact component_le (call_le (run_le env hn args)) hn
  | .group comb cs ms => by
    unfold Component.run
    exact component_le (comb_le comb (parts_le env hn cs)) hn

theorem parts_le (env : Env) {n n' : Nat} (hn : n ≤ n') : ∀ cs : List Component, List.Forall₂ PartLe (parts env n cs) (parts env n' cs)
  | [] => by simp [parts]
  | c :: cs => by
    unfold parts
    exact .cons ⟨rfl, rfl, run_le env hn c⟩ (parts_le env hn cs)
end

/-- the verdict on a grammar that is one component -/
theorem verdict_eq (env : Env) (n : Nat) (g : Component) (input : List Value) : verdict env n [g] input =
    if isWide input || hasSubsts input || isVendor input then .yes
    else
      match g.run env n input with
      | .ok [] => .yes
      | .ok (_ :: _) => .no
      | .fail => .no
      | .panic => .panic
      | .cut => .cut := rfl

theorem verdict_le (env : Env) {n n' : Nat} (hn : n ≤ n') (g : Component) (input : List Value) (h : verdict env n [g] input ≠ .cut) :
    verdict env n' [g] input = verdict env n [g] input := by
  rw [verdict_eq] at h
  rw [verdict_eq, verdict_eq]
  split
  · rfl
  · rename_i hw
    simp only [hw, Bool.false_eq_true, if_false] at h
    have hm : g.run env n input ≠ .cut := by
      intro hc
      simp [hc] at h
    rw [run_le env hn g input hm]

/-- A verdict that was not cut short is the answer. -/
theorem answers_of {env : Env} {n : Nat} {g : Component} {input : List Value} {v : Verdict} (h : verdict env n [g] input = v)
    (hv : v ≠ .cut) : Answers env g input v :=
  ⟨n, fun n' hn => by rw [verdict_le env hn g input (by rw [h]; exact hv), h]⟩

end Verif.Grammar
