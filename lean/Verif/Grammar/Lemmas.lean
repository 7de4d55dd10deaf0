import Verif.Grammar.Spec
import Mathlib.Tactic.Common
import Mathlib.Tactic.SplitIfs

/-!
# What every matcher does: it takes from the front, and more rounds change nothing but a result that has been cut short
-/

namespace Verif.Grammar
open Verif

/-- What is left is the end of the input. -/
def Shrinks (m : Matcher) : Prop := ∀ input r, m input = .ok r → r <:+ input

theorem inner_shrinks {ms : List Mult} {m : Matcher} (h : Shrinks m) :
    ∀ n cnt input r, inner ms m n cnt input = .ok r → r <:+ input := by
  intro n
  induction n with
  | zero => intro cnt input r e; simp [inner] at e
  | succ n ih =>
    intro cnt input r e
    unfold inner at e
    split at e
    · split at e
      · cases e
        exact List.nil_suffix
      · cases e
    · split at e
      · rename_i r' hr
        have s := h _ _ hr
        split at e
        · exact (ih _ _ _ e).trans s
        · split at e
          · cases e; exact s
          · exact (ih _ _ _ e).trans s
        · cases e; exact s
        · cases e
      · split at e
        · cases e; exact List.suffix_rfl
        · cases e
      · cases e
      · cases e

theorem counted_ok {a b cnt : Nat} {rest r : List Value} (h : counted a b cnt rest = .ok r) :
    r = rest ∧ a ≤ cnt ∧ cnt ≤ b := by
  unfold counted at h
  split at h
  · rename_i hc
    cases h
    exact ⟨rfl, hc.1, hc.2⟩
  · cases h

theorem csvLoop_shrinks {a b : Nat} {piece : Matcher} (h : Shrinks piece) :
    ∀ n cnt input r, csvLoop a b piece n cnt input = .ok r → r <:+ input := by
  intro n
  induction n with
  | zero => intro cnt input r e; simp [csvLoop] at e
  | succ n ih =>
    intro cnt input r e
    unfold csvLoop at e
    split at e
    · rename_i r' hr
      have s := h _ _ hr
      split at e
      · split at e
        · cases e
        · exact ((ih _ _ _ e).trans (List.suffix_cons _ _)).trans s
      · rw [(counted_ok e).1]; exact s
    · rw [(counted_ok e).1]; exact List.suffix_rfl
    · cases e
    · cases e

theorem component_shrinks {ms : List Mult} {m : Matcher} (h : Shrinks m) (n : Nat) : Shrinks (component ms m n) := by
  intro input r e
  unfold component at e
  split at e
  · exact inner_shrinks h _ _ _ _ e
  · exact csvLoop_shrinks (fun i r e => inner_shrinks h _ _ _ _ e) _ _ _ _ e

theorem single_cons (env : Env) (l : Leaf) (v : Value) (w : List Value) : single env l (v :: w) =
    match l.takes env v with
    | some true => .ok w
    | some false => .fail
    | none => .panic := by
  unfold single
  rfl

theorem single_shrinks (env : Env) (l : Leaf) : Shrinks (single env l) := by
  intro input r e
  cases input with
  | nil => simp [single] at e
  | cons v w =>
    rw [single_cons] at e
    split at e
    · cases e; exact List.suffix_cons _ _
    · cases e
    · cases e

/-- A call takes one value. -/
theorem call_ok {name : Str} {args : Matcher} {input r : List Value} (e : call name args input = .ok r) :
    ∃ c vs, input = .function c vs :: r ∧ lower c = lower name ∧ args vs = .ok [] := by
  unfold call at e
  split at e
  · rename_i c vs r'
    split at e
    · rename_i hc
      split at e
      · rename_i ha
        cases e
        exact ⟨c, vs, rfl, (by simpa [eqIgnoreCase] using hc : lower name = lower c).symm, ha⟩
      all_goals cases e
    · cases e
  · cases e

theorem call_shrinks (name : Str) (args : Matcher) : Shrinks (call name args) := by
  intro input r e
  obtain ⟨c, vs, rfl, _, _⟩ := call_ok e
  exact List.suffix_cons _ _

/-- the result of `oneOf` is that of one of the parts, or the one it began with -/
theorem oneOf_ok : ∀ (ps : List Part) (best : Option (List Value)) (input r : List Value), oneOf ps best input = .ok r →
    best = some r ∨ (∃ p ∈ ps, p.run input = .ok r) ∧ input ≠ [] := by
  intro ps
  induction ps with
  | nil =>
    intro best input r e
    unfold oneOf at e
    split at e
    · cases e; exact .inl rfl
    · cases e
  | cons p ps ih =>
    intro best input r e
    unfold oneOf at e
    split at e
    · cases e
    · rename_i hne
      have hne' : input ≠ [] := by intro h; simp [h] at hne
      split at e
      · rename_i r' hr
        rcases ih _ _ _ e with h | ⟨⟨q, hq, hqr⟩, h⟩
        · cases best with
          | none =>
            simp only [Option.some.injEq] at h
            subst h
            exact .inr ⟨⟨p, by simp, hr⟩, hne'⟩
          | some b =>
            simp only at h
            split at h
            · simp only [Option.some.injEq] at h
              subst h
              exact .inr ⟨⟨p, by simp, hr⟩, hne'⟩
            · exact .inl h
        · exact .inr ⟨⟨q, List.mem_cons_of_mem _ hq, hqr⟩, h⟩
      · rcases ih _ _ _ e with h | ⟨⟨q, hq, hqr⟩, h⟩
        · exact .inl h
        · exact .inr ⟨⟨q, List.mem_cons_of_mem _ hq, hqr⟩, h⟩
      · cases e
      · cases e

/-- the part that claims the front of the input -/
theorem scan_claimed {need : Bool} {input : List Value} : ∀ (ps before : List Part) (r : List Value) (others : List Part),
    scan need input before ps = .claimed r others →
    ∃ a p b, ps = a ++ p :: b ∧ others = before ++ a ++ b ∧ p.run input = .ok r ∧
      (need = true → r.length < input.length ∨ omissible p.ms = false) := by
  intro ps
  induction ps with
  | nil => intro before r others e; simp [scan] at e
  | cons p ps ih =>
    intro before r others e
    unfold scan at e
    split at e
    · rename_i r' hr
      split at e
      · rename_i hc
        cases e
        refine ⟨[], p, ps, rfl, by simp, hr, ?_⟩
        intro hn
        simp only [hn, Bool.not_true, Bool.false_or, Bool.or_eq_true, decide_eq_true_eq, Bool.not_eq_true'] at hc
        exact hc
      · obtain ⟨a, q, b, h1, h2, h3, h4⟩ := ih _ _ _ e
        exact ⟨p :: a, q, b, by simp [h1], by simp [h2], h3, h4⟩
    · obtain ⟨a, q, b, h1, h2, h3, h4⟩ := ih _ _ _ e
      exact ⟨p :: a, q, b, by simp [h1], by simp [h2], h3, h4⟩
    · cases e
    · cases e

/-- Nobody claims the front of the input. -/
theorem scan_nobody {need : Bool} {input : List Value} : ∀ (ps before : List Part), scan need input before ps = .nobody →
    ∀ p ∈ ps, p.run input = .fail ∨
      ∃ r, p.run input = .ok r ∧ need = true ∧ ¬ r.length < input.length ∧ omissible p.ms = true := by
  intro ps
  induction ps with
  | nil => intro before e p hp; simp at hp
  | cons p ps ih =>
    intro before e q hq
    unfold scan at e
    split at e
    · rename_i r' hr
      split at e
      · cases e
      · rename_i hc
        rcases List.mem_cons.1 hq with rfl | hq
        · refine .inr ⟨r', hr, ?_⟩
          simpa [and_assoc] using hc
        · exact ih _ e q hq
    · rename_i hr
      rcases List.mem_cons.1 hq with rfl | hq
      · exact .inl hr
      · exact ih _ e q hq
    · cases e
    · cases e

theorem pass_shrinks {need : Bool} : ∀ (k : Nat) (ps : List Part) (input : List Value) (x : List Value × List Part),
    (∀ p ∈ ps, Shrinks p.run) → pass need k ps input = .ok x → x.1 <:+ input := by
  intro k
  induction k with
  | zero =>
    intro ps input x _ e
    simp only [pass, Except.ok.injEq] at e
    subst e
    exact List.suffix_rfl
  | succ k ih =>
    intro ps input x hps e
    unfold pass at e
    split at e
    · cases e; exact List.suffix_rfl
    · split at e
      · cases e; exact List.suffix_rfl
      · rename_i r ps' hs
        obtain ⟨a, p, b, h1, h2, h3, _⟩ := scan_claimed _ _ _ _ hs
        subst h1
        simp only [List.nil_append] at h2
        subst h2
        have s := hps p (by simp) _ _ h3
        refine (ih _ _ _ ?_ e).trans s
        intro q hq
        apply hps
        simp only [List.mem_append, List.mem_cons] at hq ⊢
        tauto
      · cases e
      · cases e

/-- the result is that of one of the attempts, or the one we began with -/
theorem bestAttempt_ok {f : Nat → Res} : ∀ (os : List Nat) (best : Option (List Value)) (r : List Value),
    bestAttempt f os best = .ok r → best = some r ∨ ∃ o ∈ os, f o = .ok r := by
  intro os
  induction os with
  | nil =>
    intro best r e
    unfold bestAttempt at e
    split at e
    · cases e; exact .inl rfl
    · cases e
  | cons o os ih =>
    intro best r e
    unfold bestAttempt at e
    split at e
    · rename_i r' hr
      split at e
      · cases e; exact .inr ⟨o, by simp, hr⟩
      · rcases ih _ _ e with h | ⟨q, hq, hqr⟩
        · cases best with
          | none =>
            simp only [Option.some.injEq] at h
            subst h
            exact .inr ⟨o, by simp, hr⟩
          | some b =>
            simp only at h
            split at h
            · simp only [Option.some.injEq] at h
              subst h
              exact .inr ⟨o, by simp, hr⟩
            · exact .inl h
        · exact .inr ⟨q, List.mem_cons_of_mem _ hq, hqr⟩
    · rcases ih _ _ e with h | ⟨q, hq, hqr⟩
      · exact .inl h
      · exact .inr ⟨q, List.mem_cons_of_mem _ hq, hqr⟩
    · cases e
    · cases e

theorem oneAnyPass_ok {ps : List Part} {input r : List Value} (e : oneAnyPass ps input = .ok r) :
    ∃ left, pass false ps.length ps input = .ok (r, left) ∧ left.length ≠ ps.length := by
  unfold oneAnyPass at e
  split at e
  · rename_i rest left h
    split at e
    · cases e
    · rename_i hl
      cases e
      exact ⟨left, h, hl⟩
  · rename_i e' h
    subst e
    exfalso
    revert h
    clear * -
    intro h
    have key : ∀ (k : Nat) (ps : List Part) (input : List Value) (e : Res) (need : Bool), pass need k ps input = .error e →
        e = .panic ∨ e = .cut := by
      intro k
      induction k with
      | zero => intro ps input e need h; simp [pass] at h
      | succ k ih =>
        intro ps input e need h
        unfold pass at h
        split at h
        · cases h
        · split at h
          · cases h
          · exact ih _ _ _ _ h
          · cases h; exact .inl rfl
          · cases h; exact .inr rfl
    rcases key _ _ _ _ _ h with h | h <;> cases h

theorem pass_error {need : Bool} : ∀ (k : Nat) (ps : List Part) (input : List Value) (e : Res), pass need k ps input = .error e →
    e = .panic ∨ e = .cut := by
  intro k
  induction k with
  | zero => intro ps input e h; simp [pass] at h
  | succ k ih =>
    intro ps input e h
    unfold pass at h
    split at h
    · cases h
    · split at h
      · cases h
      · exact ih _ _ _ h
      · cases h; exact .inl rfl
      · cases h; exact .inr rfl

theorem allAnyPass_ok {ps : List Part} {input r : List Value} (e : allAnyPass ps input = .ok r) :
    ∃ left, pass true ps.length ps input = .ok (r, left) ∧ ∀ p ∈ left, omissible p.ms = true := by
  unfold allAnyPass at e
  split at e
  · rename_i rest left h
    split at e
    · rename_i hl
      cases e
      exact ⟨left, h, List.all_eq_true.1 hl⟩
    · cases e
  · rename_i e' h
    subst e
    rcases pass_error _ _ _ _ h with h | h <;> cases h

theorem rotated_mem {ps : List Part} {o : Nat} {p : Part} : p ∈ rotated ps o ↔ p ∈ ps := by
  unfold rotated
  rw [List.mem_append, or_comm, ← List.mem_append, List.take_append_drop]

theorem rotated_perm (ps : List Part) (o : Nat) : (rotated ps o).Perm ps := by
  unfold rotated
  exact List.perm_append_comm.trans (by rw [List.take_append_drop])

theorem rotated_length (ps : List Part) (o : Nat) : (rotated ps o).length = ps.length := (rotated_perm ps o).length_eq

theorem juxtapose_shrinks : ∀ (ps : List Part) (prev : Bool), (∀ p ∈ ps, Shrinks p.run) → Shrinks (juxtapose ps prev) := by
  intro ps
  induction ps with
  | nil =>
    intro prev _ input r e
    simp only [juxtapose, Res.ok.injEq] at e
    subst e
    exact List.suffix_rfl
  | cons p ps ih =>
    intro prev hps input r e
    have hps' : ∀ q ∈ ps, Shrinks q.run := fun q hq => hps q (List.mem_cons_of_mem _ hq)
    unfold juxtapose at e
    split at e
    · rename_i r' hr
      exact (ih _ hps' _ _ e).trans (hps p (by simp) _ _ hr)
    · split at e
      · split at e
        · exact ih _ hps' _ _ e
        · split at e
          · cases e; exact List.suffix_rfl
          · cases e
      · cases e
    · cases e
    · cases e

theorem comb_shrinks (comb : Comb) (ps : List Part) (hps : ∀ p ∈ ps, Shrinks p.run) : Shrinks (comb.run ps) := by
  intro input r e
  cases comb with
  | juxtaposition => exact juxtapose_shrinks _ _ hps _ _ e
  | allAnyOrder =>
    rcases bestAttempt_ok _ _ _ e with h | ⟨o, _, h⟩
    · cases h
    · obtain ⟨left, h, _⟩ := allAnyPass_ok h
      exact pass_shrinks _ _ _ _ (fun p hp => hps p (rotated_mem.1 hp)) h
  | atLeastOneAnyOrder =>
    rcases bestAttempt_ok _ _ _ e with h | ⟨o, _, h⟩
    · cases h
    · obtain ⟨left, h, _⟩ := oneAnyPass_ok h
      exact pass_shrinks _ _ _ _ (fun p hp => hps p (rotated_mem.1 hp)) h
  | exactlyOne =>
    rcases oneOf_ok _ _ _ _ e with h | ⟨⟨p, hp, h⟩, _⟩
    · cases h
    · exact hps p hp _ _ h

mutual
theorem run_shrinks (env : Env) (n : Nat) : ∀ c : Component, Shrinks (c.run env n)
  | .leaf l ms => by
    unfold Component.run
    exact component_shrinks (single_shrinks env l) n
  | .function name args ms => by
    unfold Component.run
    exact component_shrinks (call_shrinks _ _) n
  | .group comb cs ms => by
    unfold Component.run
    exact component_shrinks (comb_shrinks comb _ (parts_shrinks env n cs)) n

theorem parts_shrinks (env : Env) (n : Nat) : ∀ (cs : List Component), ∀ p ∈ parts env n cs, Shrinks p.run
  | [] => by simp [parts]
  | c :: cs => by
    intro p hp
    simp only [parts, List.mem_cons] at hp
    rcases hp with rfl | hp
    · exact run_shrinks env n c
    · exact parts_shrinks env n cs p hp
end

end Verif.Grammar
