import Verif.Grammar.Mono

/-!
# Matching comes to an end
-/

namespace Verif.Grammar
open Verif

/-- Whatever matches takes at least one value. -/
def Eats (m : Matcher) : Prop := ∀ input r, m input = .ok r → r.length < input.length

mutual
/-- how many values there are inside a value -/
def deep : Value → Nat
  | .function _ args => deeps args
  | _ => 0

/-- how many values there are, with those inside -/
def deeps : List Value → Nat
  | [] => 0
  | v :: vs => deep v + 1 + deeps vs
end

theorem deeps_length : ∀ w : List Value, w.length ≤ deeps w
  | [] => by simp [deeps]
  | v :: w => by have := deeps_length w; simp only [deeps, List.length_cons]; omega

theorem deeps_append : ∀ a b : List Value, deeps (a ++ b) = deeps a + deeps b
  | [], b => by simp [deeps]
  | v :: a, b => by simp only [List.cons_append, deeps, deeps_append a b]; omega

theorem deeps_suffix {r w : List Value} (h : r <:+ w) : deeps r ≤ deeps w := by
  obtain ⟨a, rfl⟩ := h
  rw [deeps_append]
  omega

/-- The matcher has an answer, on inputs up to some size. -/
def Sure (K : Nat) (m : Matcher) : Prop := ∀ input, deeps input ≤ K → m input = .fail ∨ ∃ r, m input = .ok r

theorem primary_mem {ms : List Mult} {m : Mult} (h : primary ms = m) (hm : m ≠ .once) : m ∈ ms := by
  unfold primary at h
  generalize hf : (ms.filter fun m => match m with
    | .bang | .csv _ _ => false
    | _ => true) = l at h
  cases l with
  | nil => exact absurd h.symm hm
  | cons x l =>
    simp only [List.head?_cons, Option.getD_some] at h
    subst h
    have hx : x ∈ x :: l := List.mem_cons_self
    rw [← hf] at hx
    exact (List.mem_filter.1 hx).1

theorem primary_or (ms : List Mult) : primary ms = .once ∨ primary ms ∈ ms := by
  by_cases h : primary ms = .once
  · exact .inl h
  · exact .inr (primary_mem rfl h)

theorem omissible_lets {ms : List Mult} (h : omissible ms = true) : ms.any Mult.lets = true := by
  unfold omissible fulfil at h
  have hp := primary_or ms
  rcases hp with hp | hp
  · rw [hp] at h; simp at h
  · rw [List.any_eq_true]
    refine ⟨_, hp, ?_⟩
    revert h
    generalize primary ms = m
    intro h
    cases m with
    | between a b =>
      by_cases ha : a = 0
      · simp [Mult.lets, ha]
      · simp [Nat.pos_of_ne_zero ha] at h
    | _ => simp_all [Mult.lets]

theorem csvBounds_mem {ms : List Mult} {a b : Nat} (h : csvBounds ms = some (a, b)) : Mult.csv a b ∈ ms := by
  unfold csvBounds at h
  have key : ∀ (ms : List Mult) (acc : Option (Nat × Nat)), (ms.foldl (fun acc m => match m with
      | .csv a b => some (a, b)
      | _ => acc) acc) = some (a, b) → acc = some (a, b) ∨ Mult.csv a b ∈ ms := by
    intro ms
    induction ms with
    | nil => intro acc h; exact .inl h
    | cons m ms ih =>
      intro acc h
      simp only [List.foldl_cons] at h
      rcases ih _ h with h' | h'
      · split at h'
        · simp only [Option.some.injEq, Prod.mk.injEq] at h'
          obtain ⟨rfl, rfl⟩ := h'
          exact .inr (by simp)
        · exact .inl h'
      · exact .inr (List.mem_cons_of_mem _ h')
  rcases key _ _ h with h | h
  · cases h
  · exact h

theorem inner_eats {ms : List Mult} {m : Matcher} (hm : Eats m) (hs : Shrinks m) (ho : omissible ms = false) (n : Nat) :
    Eats (inner ms m n 0) := by
  intro input r e
  cases n with
  | zero => simp [inner] at e
  | succ n =>
    unfold inner at e
    split at e
    · simp [ho] at e
    · split at e
      · rename_i r' hr
        have h1 := hm _ _ hr
        split at e
        · have := (inner_shrinks hs _ _ _ _ e).length_le
          omega
        · split at e
          · cases e; exact h1
          · have := (inner_shrinks hs _ _ _ _ e).length_le
            omega
        · cases e; exact h1
        · cases e
      · split at e
        · rename_i hf
          simp [omissible, hf] at ho
        · cases e
      · cases e
      · cases e

theorem csvLoop_eats {a b : Nat} {piece : Matcher} (hp : Eats piece) (hs : Shrinks piece) (ha : a ≠ 0) (n : Nat) :
    Eats (csvLoop a b piece n 0) := by
  intro input r e
  cases n with
  | zero => simp [csvLoop] at e
  | succ n =>
    unfold csvLoop at e
    split at e
    · rename_i r' hr
      have h1 := hp _ _ hr
      split at e
      · split at e
        · cases e
        · have := (csvLoop_shrinks hs _ _ _ _ e).length_le
          simp only [List.length_cons] at h1
          omega
      · rw [(counted_ok e).1]; exact h1
    · have := (counted_ok e).2.1
      omega
    · cases e
    · cases e

theorem component_eats {ms : List Mult} {m : Matcher} (hm : Eats m) (hs : Shrinks m) (hl : ms.any Mult.lets = false) (n : Nat) :
    Eats (component ms m n) := by
  have ho : omissible ms = false := by
    cases ho : omissible ms with
    | false => rfl
    | true => rw [omissible_lets ho] at hl; cases hl
  intro input r e
  unfold component at e
  split at e
  · exact inner_eats hm hs ho _ _ _ e
  · rename_i a b hb
    have ha : a ≠ 0 := by
      intro h0
      have := csvBounds_mem hb
      have h2 : ms.any Mult.lets = true := List.any_eq_true.2 ⟨_, this, by simp [Mult.lets, h0]⟩
      rw [h2] at hl
      cases hl
    exact csvLoop_eats (inner_eats hm hs ho _) (fun i r e => inner_shrinks hs _ _ _ _ e) ha _ _ _ e

theorem single_eats (env : Env) (l : Leaf) : Eats (single env l) := by
  intro input r e
  cases input with
  | nil => simp [single] at e
  | cons v w =>
    rw [single_cons] at e
    split at e
    · cases e; simp
    · cases e
    · cases e

theorem call_eats (name : Str) (args : Matcher) : Eats (call name args) := by
  intro input r e
  obtain ⟨c, vs, rfl, _, _⟩ := call_ok e
  simp

theorem juxtapose_eats : ∀ (ps : List Part) (prev : Bool), (∀ p ∈ ps, Shrinks p.run) →
    (∃ p ∈ ps, Eats p.run ∧ p.comma = false ∧ omissible p.ms = false) → Eats (juxtapose ps prev) := by
  intro ps
  induction ps with
  | nil => intro prev _ h; simp at h
  | cons p ps ih =>
    intro prev hs h input r e
    have hs' : ∀ q ∈ ps, Shrinks q.run := fun q hq => hs q (List.mem_cons_of_mem _ hq)
    obtain ⟨q, hq, hqe, hqc, hqo⟩ := h
    unfold juxtapose at e
    split at e
    · rename_i r' hr
      rcases List.mem_cons.1 hq with rfl | hq
      · have h1 := hqe _ _ hr
        have := (juxtapose_shrinks _ _ hs' _ _ e).length_le
        omega
      · have h1 := (hs p (by simp) _ _ hr).length_le
        have := ih _ hs' ⟨q, hq, hqe, hqc, hqo⟩ _ _ e
        omega
    · split at e
      · rename_i hc
        have hq' : q ∈ ps := by
          rcases List.mem_cons.1 hq with rfl | hq
          · rw [hc] at hqc; cases hqc
          · exact hq
        split at e
        · exact ih _ hs' ⟨q, hq', hqe, hqc, hqo⟩ _ _ e
        · split at e
          · rename_i hall
            simp only [Bool.and_eq_true, List.all_eq_true] at hall
            rw [hall.2 q hq'] at hqo
            cases hqo
          · cases e
      · cases e
    · cases e
    · cases e

/-- A part that eats is left over, or has eaten. -/
theorem pass_left {need : Bool} : ∀ (k : Nat) (ps : List Part) (input : List Value) (r : List Value) (left : List Part),
    (∀ p ∈ ps, Shrinks p.run) → pass need k ps input = .ok (r, left) →
    ∀ p ∈ ps, p ∈ left ∨ (Eats p.run → r.length < input.length) := by
  intro k
  induction k with
  | zero =>
    intro ps input r left _ e p hp
    simp only [pass, Except.ok.injEq, Prod.mk.injEq] at e
    obtain ⟨rfl, rfl⟩ := e
    exact .inl hp
  | succ k ih =>
    intro ps input r left hs e p hp
    unfold pass at e
    split at e
    · cases e; exact .inl hp
    · split at e
      · cases e; exact .inl hp
      · rename_i r' ps' hsc
        obtain ⟨a, q, b, h1, h2, h3, _⟩ := scan_claimed _ _ _ _ hsc
        subst h1
        simp only [List.nil_append] at h2
        subst h2
        have hs' : ∀ q ∈ a ++ b, Shrinks q.run := by
          intro q hq
          apply hs
          simp only [List.mem_append, List.mem_cons] at hq ⊢
          tauto
        have h4 := (pass_shrinks _ _ _ _ hs' e).length_le
        have h5 := (hs q (by simp) _ _ h3).length_le
        by_cases hpq : p ∈ a ++ b
        · rcases ih _ _ _ _ hs' e p hpq with h | h
          · exact .inl h
          · exact .inr fun he => by have := h he; omega
        · have : p = q := by
            simp only [List.mem_append, List.mem_cons] at hp hpq
            tauto
          subst this
          exact .inr fun he => by
            have := he _ _ h3
            simp only at h4
            omega
      · cases e
      · cases e

/-- If every part eats and something is not left over, something was eaten. -/
theorem pass_some {need : Bool} (k : Nat) (ps : List Part) (input : List Value) (r : List Value) (left : List Part)
    (hs : ∀ p ∈ ps, Shrinks p.run) (he : ∀ p ∈ ps, Eats p.run) (e : pass need k ps input = .ok (r, left))
    (hl : left.length ≠ ps.length) : r.length < input.length := by
  cases k with
  | zero =>
    simp only [pass, Except.ok.injEq, Prod.mk.injEq] at e
    rw [e.2] at hl
    exact absurd rfl hl
  | succ k =>
    unfold pass at e
    split at e
    · cases e; exact absurd rfl hl
    · split at e
      · cases e; exact absurd rfl hl
      · rename_i r' ps' hsc
        obtain ⟨a, q, b, h1, h2, h3, _⟩ := scan_claimed _ _ _ _ hsc
        subst h1
        simp only [List.nil_append] at h2
        subst h2
        have hs' : ∀ q ∈ a ++ b, Shrinks q.run := by
          intro q hq
          apply hs
          simp only [List.mem_append, List.mem_cons] at hq ⊢
          tauto
        have h4 := (pass_shrinks _ _ _ _ hs' e).length_le
        have := he q (by simp) _ _ h3
        simp only at h4
        omega
      · cases e
      · cases e

theorem not_omissible {c : Component} (h : c.mayBeEmpty = false) : omissible c.ms = false := by
  cases ho : omissible c.ms with
  | false => rfl
  | true =>
    have hl := omissible_lets ho
    cases c with
    | leaf l ms => simp only [Component.mayBeEmpty, Component.ms] at h hl; rw [hl] at h; exact h
    | function name args ms => simp only [Component.mayBeEmpty, Component.ms] at h hl; rw [hl] at h; exact h
    | group comb cs ms => simp only [Component.mayBeEmpty, Component.ms] at h hl; rw [hl] at h; exact h

theorem parts_of_mem (env : Env) (n : Nat) : ∀ (cs : List Component) (c : Component), c ∈ cs →
    (⟨c.ms, c.isComma, c.run env n⟩ : Part) ∈ parts env n cs
  | [], c, h => by simp at h
  | d :: cs, c, h => by
    simp only [parts, List.mem_cons]
    rcases List.mem_cons.1 h with rfl | h
    · exact .inl rfl
    · exact .inr (parts_of_mem env n cs c h)

theorem mem_parts (env : Env) (n : Nat) : ∀ (cs : List Component) (p : Part), p ∈ parts env n cs →
    ∃ c ∈ cs, p = ⟨c.ms, c.isComma, c.run env n⟩
  | [], p, h => by simp [parts] at h
  | d :: cs, p, h => by
    simp only [parts, List.mem_cons] at h
    rcases h with rfl | h
    · exact ⟨d, by simp, rfl⟩
    · obtain ⟨c, hc, e⟩ := mem_parts env n cs p h
      exact ⟨c, List.mem_cons_of_mem _ hc, e⟩

mutual
theorem run_eats (env : Env) (n : Nat) : ∀ c : Component, c.mayBeEmpty = false → Eats (c.run env n)
  | .leaf l ms, h => by
    unfold Component.run
    simp only [Component.mayBeEmpty] at h
    exact component_eats (single_eats env l) (single_shrinks env l) h n
  | .function name args ms, h => by
    unfold Component.run
    simp only [Component.mayBeEmpty] at h
    exact component_eats (call_eats _ _) (call_shrinks _ _) h n
  | .group comb cs ms, h => by
    unfold Component.run
    simp only [Component.mayBeEmpty, Bool.or_eq_false_iff] at h
    exact component_eats (group_eats env n comb cs h.2) (comb_shrinks _ _ (parts_shrinks env n cs)) h.1 n

theorem group_eats (env : Env) (n : Nat) (comb : Comb) (cs : List Component) (h : hollow comb cs = false) :
    Eats (comb.run (parts env n cs)) := by
  have hs := parts_shrinks env n cs
  intro input r e
  cases comb with
  | juxtaposition =>
    obtain ⟨p, hp, he, hc, ho⟩ := all_eats env n cs (by simpa [hollow] using h)
    exact juxtapose_eats _ _ hs ⟨p, hp, he, hc, ho⟩ _ _ e
  | allAnyOrder =>
    obtain ⟨p, hp, he, hc, ho⟩ := all_eats env n cs (by simpa [hollow] using h)
    rcases bestAttempt_ok _ _ _ e with h | ⟨o, _, h⟩
    · cases h
    · obtain ⟨left, h, hl⟩ := allAnyPass_ok h
      rcases pass_left _ _ _ _ _ (fun p hp => hs p (rotated_mem.1 hp)) h p (rotated_mem.2 hp) with h | h
      · rw [hl p h] at ho; cases ho
      · exact h he
  | atLeastOneAnyOrder =>
    have ha := any_eats env n cs (by simpa [hollow] using h)
    rcases bestAttempt_ok _ _ _ e with h | ⟨o, _, h⟩
    · cases h
    · obtain ⟨left, h, hl⟩ := oneAnyPass_ok h
      exact pass_some _ _ _ _ _ (fun p hp => hs p (rotated_mem.1 hp)) (fun p hp => ha p (rotated_mem.1 hp)) h hl
  | exactlyOne =>
    have ha := any_eats env n cs (by simpa [hollow] using h)
    rcases oneOf_ok _ _ _ _ e with h | ⟨⟨p, hp, h⟩, _⟩
    · cases h
    · exact ha p hp _ _ h

theorem all_eats (env : Env) (n : Nat) : ∀ cs : List Component, allHollow cs = false →
    ∃ p ∈ parts env n cs, Eats p.run ∧ p.comma = false ∧ omissible p.ms = false
  | [], h => by simp [allHollow] at h
  | c :: cs, h => by
    simp only [parts]
    by_cases hc : (c.mayBeEmpty || c.isComma) = true
    · simp only [allHollow, hc, Bool.true_and] at h
      obtain ⟨p, hp, h⟩ := all_eats env n cs h
      exact ⟨p, List.mem_cons_of_mem _ hp, h⟩
    · simp only [Bool.or_eq_true, not_or, Bool.not_eq_true] at hc
      exact ⟨_, List.mem_cons_self, run_eats env n c hc.1, hc.2, not_omissible hc.1⟩

theorem any_eats (env : Env) (n : Nat) : ∀ cs : List Component, anyHollow cs = false → ∀ p ∈ parts env n cs, Eats p.run
  | [], _ => by simp [parts]
  | c :: cs, h => by
    simp only [anyHollow, Bool.or_eq_false_iff] at h
    intro p hp
    simp only [parts, List.mem_cons] at hp
    rcases hp with rfl | hp
    · exact run_eats env n c h.1
    · exact any_eats env n cs h.2 p hp
end

/-! ## Answers -/

/-- more than this a multiplier does not want -/
def Mult.cap : Mult → Nat
  | .between a b => max a b
  | _ => 1

theorem fulfil_cap {ms : List Mult} {c : Nat} (h : fulfil ms c = .notYet ∨ fulfil ms c = .more) (h1 : primary ms ≠ .star)
    (h2 : primary ms ≠ .plus) : c < (primary ms).cap := by
  unfold fulfil at h
  cases hp : primary ms with
  | star => exact absurd hp h1
  | plus => exact absurd hp h2
  | between a b =>
    rw [hp] at h
    simp only at h
    simp only [Mult.cap]
    split_ifs at h <;> simp_all <;> omega
  | once => rw [hp] at h; simp only at h; split_ifs at h <;> simp_all [Mult.cap]
  | opt => rw [hp] at h; simp only at h; split_ifs at h <;> simp_all [Mult.cap]
  | bang => rw [hp] at h; simp at h
  | csv a b => rw [hp] at h; simp at h

theorem inner_sure_cap {K : Nat} {ms : List Mult} {m : Matcher} (hm : Sure K m) (hs : Shrinks m) (h1 : primary ms ≠ .star)
    (h2 : primary ms ≠ .plus) : ∀ n cnt, 0 < n → (primary ms).cap ≤ n + cnt → Sure K (inner ms m n cnt) := by
  intro n
  induction n with
  | zero => intro cnt h; omega
  | succ n ih =>
    intro cnt _ hn input hi
    unfold inner
    split
    · split
      · exact .inr ⟨_, rfl⟩
      · exact .inl rfl
    · rcases hm input hi with hr | ⟨r, hr⟩
      · rw [hr]
        simp only
        split
        · exact .inr ⟨_, rfl⟩
        · exact .inl rfl
      · rw [hr]
        simp only
        have hd : deeps r ≤ K := Nat.le_trans (deeps_suffix (hs _ _ hr)) hi
        split
        · rename_i hf
          have := fulfil_cap (.inl hf) h1 h2
          exact ih _ (by omega) (by omega) r hd
        · rename_i hf
          split
          · exact .inr ⟨_, rfl⟩
          · have := fulfil_cap (.inr hf) h1 h2
            exact ih _ (by omega) (by omega) r hd
        · exact .inr ⟨_, rfl⟩
        · exact .inl rfl

theorem inner_sure_eats {K : Nat} {ms : List Mult} {m : Matcher} (hm : Sure K m) (he : Eats m) (hs : Shrinks m) :
    ∀ n cnt input, deeps input ≤ K → input.length < n →
      inner ms m n cnt input = .fail ∨ ∃ r, inner ms m n cnt input = .ok r := by
  intro n
  induction n with
  | zero => intro cnt input _ h; omega
  | succ n ih =>
    intro cnt input hi hn
    unfold inner
    split
    · split
      · exact .inr ⟨_, rfl⟩
      · exact .inl rfl
    · rcases hm input hi with hr | ⟨r, hr⟩
      · rw [hr]
        simp only
        split
        · exact .inr ⟨_, rfl⟩
        · exact .inl rfl
      · rw [hr]
        simp only
        have hd : deeps r ≤ K := Nat.le_trans (deeps_suffix (hs _ _ hr)) hi
        have hl := he _ _ hr
        split
        · exact ih _ _ hd (by omega)
        · split
          · exact .inr ⟨_, rfl⟩
          · exact ih _ _ hd (by omega)
        · exact .inr ⟨_, rfl⟩
        · exact .inl rfl

theorem counted_sure (a b cnt : Nat) (rest : List Value) : counted a b cnt rest = .fail ∨ ∃ r, counted a b cnt rest = .ok r := by
  unfold counted
  split
  · exact .inr ⟨_, rfl⟩
  · exact .inl rfl

theorem csvLoop_sure {K a b : Nat} {piece : Matcher} (hp : Sure K piece) (hs : Shrinks piece) :
    ∀ n cnt input, deeps input ≤ K → input.length < n →
      csvLoop a b piece n cnt input = .fail ∨ ∃ r, csvLoop a b piece n cnt input = .ok r := by
  intro n
  induction n with
  | zero => intro cnt input _ h; omega
  | succ n ih =>
    intro cnt input hi hn
    unfold csvLoop
    rcases hp input hi with hr | ⟨r, hr⟩
    · rw [hr]
      exact counted_sure _ _ _ _
    · rw [hr]
      simp only
      have hsr := hs _ _ hr
      split
      · split
        · exact .inl rfl
        · rename_i r' _
          have h1 := deeps_suffix hsr
          have h2 := hsr.length_le
          simp only [deeps, List.length_cons] at h1 h2
          exact ih _ _ (by omega) (by omega)
      · exact counted_sure _ _ _ _

/-- the rounds that the multipliers want -/
def caps (ms : List Mult) : Nat := (ms.map Mult.cap).sum

theorem primary_cap (ms : List Mult) : (primary ms).cap ≤ caps ms + 1 := by
  have hp := primary_or ms
  rcases hp with hp | hp
  · rw [hp]; simp [Mult.cap]
  · have key : ∀ (ms : List Mult) (m : Mult), m ∈ ms → m.cap ≤ caps ms := by
      intro ms
      induction ms with
      | nil => intro m h; simp at h
      | cons x ms ih =>
        intro m h
        simp only [caps, List.map_cons, List.sum_cons] at ih ⊢
        rcases List.mem_cons.1 h with rfl | h
        · omega
        · have := ih m h
          omega
    have := key ms _ hp
    omega

theorem component_sure {K : Nat} {ms : List Mult} {m : Matcher} (hm : Sure K m) (hs : Shrinks m)
    (he : (ms.contains .star || ms.contains .plus) = true → Eats m) {n : Nat} (hn : K + caps ms + 1 ≤ n) :
    Sure K (component ms m n) := by
  have hin : Sure K (inner ms m n 0) := by
    by_cases hu : primary ms = .star ∨ primary ms = .plus
    · have : Eats m := by
        apply he
        simp only [Bool.or_eq_true, List.contains_iff_mem]
        rcases hu with hu | hu
        · exact .inl (primary_mem hu (by simp))
        · exact .inr (primary_mem hu (by simp))
      intro input hi
      have := deeps_length input
      exact inner_sure_eats hm ‹Eats m› hs _ _ _ hi (by omega)
    · rw [not_or] at hu
      have := primary_cap ms
      exact inner_sure_cap hm hs hu.1 hu.2 _ _ (by omega) (by omega)
  intro input hi
  unfold component
  split
  · exact hin input hi
  · have := deeps_length input
    exact csvLoop_sure hin (fun i r e => inner_shrinks hs _ _ _ _ e) _ _ _ hi (by omega)

theorem oneOf_sure {K : Nat} : ∀ (ps : List Part) (best : Option (List Value)), (∀ p ∈ ps, Sure K p.run) → Sure K (oneOf ps best) := by
  intro ps
  induction ps with
  | nil =>
    intro best _ input _
    unfold oneOf
    split
    · exact .inr ⟨_, rfl⟩
    · exact .inl rfl
  | cons p ps ih =>
    intro best hps input hi
    unfold oneOf
    split
    · exact .inl rfl
    · rcases hps p (by simp) input hi with hr | ⟨r, hr⟩
      · rw [hr]; exact ih _ (fun q hq => hps q (List.mem_cons_of_mem _ hq)) input hi
      · rw [hr]; exact ih _ (fun q hq => hps q (List.mem_cons_of_mem _ hq)) input hi

theorem scan_sure {K : Nat} {need : Bool} {input : List Value} (hi : deeps input ≤ K) : ∀ (ps before : List Part),
    (∀ p ∈ ps, Sure K p.run) → scan need input before ps = .nobody ∨ ∃ r o, scan need input before ps = .claimed r o := by
  intro ps
  induction ps with
  | nil => intro before _; exact .inl rfl
  | cons p ps ih =>
    intro before hps
    unfold scan
    rcases hps p (by simp) input hi with hr | ⟨r, hr⟩
    · rw [hr]; exact ih _ (fun q hq => hps q (List.mem_cons_of_mem _ hq))
    · rw [hr]
      simp only
      split
      · exact .inr ⟨_, _, rfl⟩
      · exact ih _ (fun q hq => hps q (List.mem_cons_of_mem _ hq))

theorem pass_sure {K : Nat} {need : Bool} : ∀ (k : Nat) (ps : List Part) (input : List Value), deeps input ≤ K →
    (∀ p ∈ ps, Sure K p.run) → (∀ p ∈ ps, Shrinks p.run) → ∃ x, pass need k ps input = .ok x := by
  intro k
  induction k with
  | zero => intro ps input _ _ _; exact ⟨_, rfl⟩
  | succ k ih =>
    intro ps input hi hps hs
    unfold pass
    split
    · exact ⟨_, rfl⟩
    · rcases scan_sure (need := need) hi ps [] hps with h | ⟨r, o, h⟩
      · rw [h]; exact ⟨_, rfl⟩
      · rw [h]
        obtain ⟨a, q, b, h1, h2, h3, _⟩ := scan_claimed _ _ _ _ h
        subst h1
        simp only [List.nil_append] at h2
        subst h2
        have hsub : ∀ p ∈ a ++ b, p ∈ a ++ q :: b := by
          intro p hp
          simp only [List.mem_append, List.mem_cons] at hp ⊢
          tauto
        exact ih _ _ (Nat.le_trans (deeps_suffix (hs q (by simp) _ _ h3)) hi) (fun p hp => hps p (hsub p hp))
          (fun p hp => hs p (hsub p hp))

theorem bestAttempt_sure {f : Nat → Res} (h : ∀ o, f o = .fail ∨ ∃ r, f o = .ok r) : ∀ (os : List Nat) (best : Option (List Value)),
    bestAttempt f os best = .fail ∨ ∃ r, bestAttempt f os best = .ok r := by
  intro os
  induction os with
  | nil =>
    intro best
    unfold bestAttempt
    split
    · exact .inr ⟨_, rfl⟩
    · exact .inl rfl
  | cons o os ih =>
    intro best
    unfold bestAttempt
    rcases h o with hr | ⟨r, hr⟩
    · rw [hr]; exact ih _
    · rw [hr]
      simp only
      split
      · exact .inr ⟨_, rfl⟩
      · exact ih _

theorem juxtapose_sure {K : Nat} : ∀ (ps : List Part) (prev : Bool), (∀ p ∈ ps, Sure K p.run) → (∀ p ∈ ps, Shrinks p.run) →
    Sure K (juxtapose ps prev) := by
  intro ps
  induction ps with
  | nil => intro prev _ _ input _; exact .inr ⟨_, rfl⟩
  | cons p ps ih =>
    intro prev hps hs input hi
    have hps' : ∀ q ∈ ps, Sure K q.run := fun q hq => hps q (List.mem_cons_of_mem _ hq)
    have hs' : ∀ q ∈ ps, Shrinks q.run := fun q hq => hs q (List.mem_cons_of_mem _ hq)
    unfold juxtapose
    rcases hps p (by simp) input hi with hr | ⟨r, hr⟩
    · rw [hr]
      simp only
      split
      · split
        · exact ih _ hps' hs' _ hi
        · split
          · exact .inr ⟨_, rfl⟩
          · exact .inl rfl
      · exact .inl rfl
    · rw [hr]
      exact ih _ hps' hs' _ (Nat.le_trans (deeps_suffix (hs p (by simp) _ _ hr)) hi)

theorem comb_sure {K : Nat} (comb : Comb) (ps : List Part) (hps : ∀ p ∈ ps, Sure K p.run) (hs : ∀ p ∈ ps, Shrinks p.run) :
    Sure K (comb.run ps) := by
  intro input hi
  cases comb with
  | juxtaposition => exact juxtapose_sure _ _ hps hs _ hi
  | exactlyOne => exact oneOf_sure _ _ hps _ hi
  | allAnyOrder =>
    apply bestAttempt_sure
    intro o
    obtain ⟨x, hx⟩ := pass_sure (need := true) (rotated ps o).length (rotated ps o) input hi
      (fun p hp => hps p (rotated_mem.1 hp)) (fun p hp => hs p (rotated_mem.1 hp))
    unfold allAnyPass
    rw [hx]
    obtain ⟨x1, x2⟩ := x
    simp only
    split
    · exact .inr ⟨_, rfl⟩
    · exact .inl rfl
  | atLeastOneAnyOrder =>
    apply bestAttempt_sure
    intro o
    obtain ⟨x, hx⟩ := pass_sure (need := false) (rotated ps o).length (rotated ps o) input hi
      (fun p hp => hps p (rotated_mem.1 hp)) (fun p hp => hs p (rotated_mem.1 hp))
    unfold oneAnyPass
    rw [hx]
    obtain ⟨x1, x2⟩ := x
    simp only
    split
    · exact .inl rfl
    · exact .inr ⟨_, rfl⟩

theorem takes_some {env : Env} {l : Leaf} (h : l.isProperty = false) (v : Value) : ∃ b, l.takes env v = some b := by
  cases l <;> first | exact ⟨_, rfl⟩ | simp [Leaf.isProperty] at h

theorem single_sure {K : Nat} {env : Env} {l : Leaf} (h : l.isProperty = false) : Sure K (single env l) := by
  intro input _
  cases input with
  | nil => exact .inl rfl
  | cons v w =>
    obtain ⟨b, hb⟩ := takes_some (env := env) h v
    rw [single_cons, hb]
    cases b
    · exact .inl rfl
    · exact .inr ⟨_, rfl⟩

theorem call_sure {K : Nat} {name : Str} {args : Matcher} (h : Sure K args) : Sure K (call name args) := by
  intro input hi
  unfold call
  split
  · rename_i c vs r
    simp only [deeps, deep] at hi
    split
    · rcases h vs (by omega) with hr | ⟨r', hr⟩
      · rw [hr]; exact .inl rfl
      · rw [hr]
        cases r' with
        | nil => exact .inr ⟨_, rfl⟩
        | cons => exact .inl rfl
    · exact .inl rfl
  · exact .inl rfl

mutual
/-- the rounds that the multipliers of a grammar want -/
def Component.rounds : Component → Nat
  | .leaf _ ms => caps ms
  | .function _ args ms => caps ms + args.rounds
  | .group _ cs ms => caps ms + allRounds cs

def allRounds : List Component → Nat
  | [] => 0
  | c :: cs => c.rounds + allRounds cs
end

mutual
theorem run_sure (env : Env) {K n : Nat} : ∀ c : Component, c.busy = true → c.resolved = true → K + c.rounds + 1 ≤ n →
    Sure K (c.run env n)
  | .leaf l ms, _, hr, hn => by
    unfold Component.run
    exact component_sure (single_sure (by simpa [Component.resolved] using hr)) (single_shrinks _ _)
      (fun _ => single_eats _ _) (by simpa [Component.rounds] using hn)
  | .function name args ms, hb, hr, hn => by
    unfold Component.run
    simp only [Component.rounds] at hn
    exact component_sure (call_sure (run_sure env args (by simpa [Component.busy] using hb) (by simpa [Component.resolved] using hr)
      (by omega))) (call_shrinks _ _) (fun _ => call_eats _ _) (by omega)
  | .group comb cs ms, hb, hr, hn => by
    unfold Component.run
    simp only [Component.rounds] at hn
    simp only [Component.busy, Bool.and_eq_true] at hb
    have hs := parts_shrinks env n cs
    refine component_sure (comb_sure comb _ (parts_sure env cs hb.2 (by simpa [Component.resolved] using hr) (by omega)) hs)
      (comb_shrinks _ _ hs) (fun h => ?_) (by omega)
    refine group_eats env n comb cs ?_
    have := hb.1
    rw [h] at this
    simpa using this

theorem parts_sure (env : Env) {K n : Nat} : ∀ cs : List Component, allBusy cs = true → allResolved cs = true →
    K + allRounds cs + 1 ≤ n → ∀ p ∈ parts env n cs, Sure K p.run
  | [], _, _, _ => by simp [parts]
  | c :: cs, hb, hr, hn => by
    simp only [allBusy, allResolved, Bool.and_eq_true, allRounds] at hb hr hn
    intro p hp
    simp only [parts, List.mem_cons] at hp
    rcases hp with rfl | hp
    · exact run_sure env c hb.1 hr.1 (by omega)
    · exact parts_sure env cs hb.2 hr.2 (by omega) p hp
end

end Verif.Grammar
