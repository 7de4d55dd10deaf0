import Verif.Grammar.Ends

/-!
# What is accepted is in the grammar
-/

namespace Verif.Grammar
open Verif

/-- What the matcher takes is in the language. -/
def SoundOpen (m : Matcher) (L : Lang) : Prop := ∀ input r, m input = .ok r → ∃ w, L w ∧ input = w ++ r

/-- If the matcher takes everything, it is in the language. -/
def SoundEnd (m : Matcher) (L : Lang) : Prop := ∀ input, m input = .ok [] → L input

theorem SoundOpen.toEnd {m : Matcher} {L : Lang} (h : SoundOpen m L) : SoundEnd m L := by
  intro input e
  obtain ⟨w, hw, rfl⟩ := h _ _ e
  simpa using hw

/-! ## Multipliers -/

theorem omissible_notYet {ms : List Mult} (h : omissible ms = true) (c : Nat) : fulfil ms c ≠ .notYet := by
  intro hf
  unfold omissible at h
  unfold fulfil at h hf
  cases hp : primary ms with
  | once => rw [hp] at h; simp at h
  | plus => rw [hp] at h; simp at h
  | star => rw [hp] at hf; simp at hf
  | opt => rw [hp] at hf; simp only at hf; split_ifs at hf
  | bang => rw [hp] at h; simp at h
  | csv a b => rw [hp] at h; simp at h
  | between a b =>
    rw [hp] at h hf
    simp only at h hf
    by_cases ha : 0 < a
    · simp [ha] at h
    · have : ¬ c < a := by omega
      simp only [this, if_false] at hf
      split_ifs at hf

/-- The number of repetitions is one that the multiplier allows. -/
def Enough (ms : List Mult) (c : Nat) : Prop := fulfil ms c = .more ∨ fulfil ms c = .done

theorem inner_sound {ms : List Mult} {m : Matcher} {L : Lang} (hm : SoundOpen m L) : ∀ n cnt input r,
    inner ms m n cnt input = .ok r → (cnt = 0 ∨ input ≠ [] ∨ fulfil ms cnt = .notYet) →
    ∃ ps : List (List Value), (∀ p ∈ ps, L p) ∧ input = ps.flatten ++ r ∧ Enough ms (cnt + ps.length) := by
  intro n
  induction n with
  | zero => intro cnt input r e; simp [inner] at e
  | succ n ih =>
    intro cnt input r e hc
    unfold inner at e
    split at e
    · rename_i hi
      have hi' : input = [] := List.isEmpty_iff.1 hi
      split at e
      · rename_i ho
        cases e
        refine ⟨[], by simp, by simp [hi'], ?_⟩
        have hz : cnt = 0 := by
          rcases hc with h | h | h
          · exact h
          · exact absurd hi' h
          · exact absurd h (omissible_notYet ho _)
        subst hz
        unfold omissible at ho
        simp only [Bool.or_eq_true, decide_eq_true_eq] at ho
        simp only [List.length_nil, Nat.add_zero]
        exact ho.symm
      · cases e
    · split at e
      · rename_i r' hr
        obtain ⟨w, hw, hin⟩ := hm _ _ hr
        have build : ∀ ps : List (List Value), (∀ p ∈ ps, L p) → r' = ps.flatten ++ r → Enough ms (cnt + 1 + ps.length) →
            ∃ ps : List (List Value), (∀ p ∈ ps, L p) ∧ input = ps.flatten ++ r ∧ Enough ms (cnt + ps.length) := by
          intro ps h1 h2 h3
          refine ⟨w :: ps, ?_, ?_, ?_⟩
          · intro p hp
            rcases List.mem_cons.1 hp with rfl | hp
            · exact hw
            · exact h1 p hp
          · simp [hin, h2]
          · have : cnt + (w :: ps).length = cnt + 1 + ps.length := by simp only [List.length_cons]; omega
            rw [this]; exact h3
        split at e
        · rename_i hf
          obtain ⟨ps, h1, h2, h3⟩ := ih _ _ _ e (.inr (.inr hf))
          exact build ps h1 h2 h3
        · rename_i hf
          split at e
          · cases e
            exact build [] (by simp) (by simp) (by left; simpa using hf)
          · rename_i hre
            obtain ⟨ps, h1, h2, h3⟩ := ih _ _ _ e (.inr (.inl (by intro h; simp [h] at hre)))
            exact build ps h1 h2 h3
        · rename_i hf
          cases e
          exact build [] (by simp) (by simp) (by right; simpa using hf)
        · cases e
      · split at e
        · rename_i hf
          cases e
          exact ⟨[], by simp, by simp, .inl (by simpa using hf)⟩
        · cases e
      · cases e
      · cases e

theorem enough_plain {ms : List Mult} {m : Mult} (hp : primary ms = m) {L : Lang} (ps : List (List Value)) (hL : ∀ p ∈ ps, L p)
    (he : Enough ms ps.length) : m.lang L ps.flatten := by
  unfold Enough fulfil at he
  rw [hp] at he
  have one : ps.length = 1 → L ps.flatten := by
    intro h
    obtain ⟨p, rfl⟩ := List.length_eq_one_iff.1 h
    simpa using hL
  cases m with
  | once =>
    simp only at he
    apply one
    split_ifs at he <;> simp_all
  | opt =>
    simp only at he
    by_cases h0 : ps.length = 0
    · left; rw [List.length_eq_zero_iff.1 h0]; rfl
    · right
      apply one
      split_ifs at he <;> simp_all
  | star => exact ⟨ps, hL, rfl⟩
  | plus =>
    refine ⟨ps, ?_, hL, rfl⟩
    rintro rfl
    simp at he
  | between a b =>
    refine ⟨ps, ?_, ?_, hL, rfl⟩
    · simp only at he
      split_ifs at he <;> simp_all
    · simp only at he
      split_ifs at he <;> simp_all
      omega
  | bang => simp at he
  | csv a b => simp at he

theorem inner_primary {ms : List Mult} {m : Mult} (hp : primary ms = m) {f : Matcher} {L : Lang} (hm : SoundOpen f L) (n : Nat) :
    SoundOpen (inner ms f n 0) (m.lang L) := by
  intro input r e
  obtain ⟨ps, h1, h2, h3⟩ := inner_sound hm _ _ _ _ e (.inl rfl)
  rw [Nat.zero_add] at h3
  exact ⟨ps.flatten, enough_plain hp ps h1 h3, h2⟩

theorem csvLoop_sound {a b : Nat} {piece : Matcher} {L : Lang} (hp : SoundOpen piece L) : ∀ n cnt input,
    csvLoop a b piece n cnt input = .ok [] → (cnt = 0 ∨ input ≠ []) →
    ∃ ps : List (List Value), (∀ p ∈ ps, L p) ∧ Joined (· = [.comma]) ps input ∧ a ≤ cnt + ps.length ∧ cnt + ps.length ≤ b ∧
      (cnt ≠ 0 → ps ≠ []) := by
  intro n
  induction n with
  | zero => intro cnt input e; simp [csvLoop] at e
  | succ n ih =>
    intro cnt input e hc
    unfold csvLoop at e
    split at e
    · rename_i r hr
      obtain ⟨w, hw, hin⟩ := hp _ _ hr
      split at e
      · rename_i r'
        split at e
        · cases e
        · rename_i hre
          obtain ⟨ps, h1, h2, h3, h4, h5⟩ := ih _ _ e (.inr (by intro h; simp [h] at hre))
          cases ps with
          | nil => exact absurd rfl (h5 (by omega))
          | cons t ps =>
            refine ⟨w :: t :: ps, ?_, ?_, ?_, ?_, by simp⟩
            · intro p hp
              rcases List.mem_cons.1 hp with rfl | hp
              · exact hw
              · exact h1 p hp
            · have := Joined.more (sep := (· = [Value.comma])) w [.comma] t ps r' rfl h2
              rw [hin]
              simpa using this
            · simp only [List.length_cons] at h3 ⊢; omega
            · simp only [List.length_cons] at h4 ⊢; omega
      · obtain ⟨h1, h2, h3⟩ := counted_ok e
        subst h1
        refine ⟨[w], by simpa using hw, ?_, by simpa using h2, by simpa using h3, by simp⟩
        rw [hin, List.append_nil]
        exact .one w
    · obtain ⟨h1, h2, h3⟩ := counted_ok e
      subst h1
      rcases hc with rfl | hc
      · exact ⟨[], by simp, .none, by simpa using h2, by simp, by simp⟩
      · exact absurd rfl hc
    · cases e
    · cases e

theorem component_open {ms : List Mult} (hms : Plain ms) {m : Matcher} {L : Lang} (hm : SoundOpen m L) (n : Nat) :
    SoundOpen (component ms m n) (multiplied ms L) := by
  intro input r e
  unfold Plain at hms
  split at hms <;> first | exact inner_primary rfl hm n input r e | exact hms.elim

theorem component_end {ms : List Mult} (hms : Ends ms) {m : Matcher} {L : Lang} (hm : SoundOpen m L) (n : Nat) :
    SoundEnd (component ms m n) (multiplied ms L) := by
  rcases hms with h | rfl | ⟨a, b, rfl | rfl⟩
  · exact (component_open h hm n).toEnd
  · intro input e
    have e' : inner [.bang] m n 0 input = .ok [] := e
    have h1 : Mult.once.lang L input := (inner_primary (ms := [.bang]) rfl hm n).toEnd input e'
    refine ⟨h1, ?_⟩
    rintro rfl
    cases n with
    | zero => simp [inner] at e'
    | succ n => unfold inner at e'; simp [omissible, fulfil, primary] at e'
  · intro input e
    have e' : csvLoop a b (inner [.csv a b] m n 0) n 0 input = .ok [] := e
    obtain ⟨ps, h1, h2, h3, h4, _⟩ := csvLoop_sound (L := L) (inner_primary (ms := [.csv a b]) (m := .once) rfl hm n) _ _ _ e' (.inl rfl)
    exact ⟨ps, by simpa using h3, by simpa using h4, h1, h2⟩
  · intro input e
    have e' : csvLoop a b (inner [.plus, .csv a b] m n 0) n 0 input = .ok [] := e
    obtain ⟨ps, h1, h2, h3, h4, _⟩ := csvLoop_sound (inner_primary (ms := [.plus, .csv a b]) (m := .plus) rfl hm n) _ _ _ e' (.inl rfl)
    exact ⟨ps, by simpa using h3, by simpa using h4, h1, h2⟩

/-- A component that is written once, or `?` or `!`, and stands last. -/
theorem component_last {ms : List Mult} (hms : ms = [.once] ∨ ms = [.opt] ∨ ms = [.bang]) {m : Matcher} {L : Lang} (hm : SoundEnd m L)
    (n : Nat) : SoundEnd (component ms m n) (multiplied ms L) := by
  intro input e
  have e' : inner ms m n 0 input = .ok [] := by rcases hms with rfl | rfl | rfl <;> exact e
  cases n with
  | zero => simp [inner] at e'
  | succ n =>
    unfold inner at e'
    split at e'
    · rename_i hi
      have hi' : input = [] := List.isEmpty_iff.1 hi
      rcases hms with rfl | rfl | rfl
      · simp [omissible, fulfil, primary] at e'
      · left; exact hi'
      · simp [omissible, fulfil, primary] at e'
    · rename_i hi
      have hne : input ≠ [] := by intro h; simp [h] at hi
      split at e'
      · rename_i r hr
        have hr' : r = [] := by
          rcases hms with rfl | rfl | rfl <;> simpa [fulfil, primary] using e'
        subst hr'
        have := hm _ hr
        rcases hms with rfl | rfl | rfl
        · exact this
        · exact .inr this
        · exact ⟨this, hne⟩
      · split at e'
        · cases e'; exact absurd rfl hne
        · cases e'
      · cases e'
      · cases e'

theorem omissible_lang {ms : List Mult} (hms : Ends ms) (ho : omissible ms = true) (L : Lang) : multiplied ms L [] := by
  rcases hms with h | rfl | ⟨a, b, rfl | rfl⟩
  · unfold Plain at h
    split at h
    · simp [omissible, fulfil, primary] at ho
    · left; rfl
    · exact ⟨[], by simp, rfl⟩
    · simp [omissible, fulfil, primary] at ho
    · rename_i a b
      have ha : a = 0 := by
        by_cases ha : 0 < a
        · simp [omissible, fulfil, primary, ha] at ho
        · omega
      exact ⟨[], by simp [ha], by simp, by simp, rfl⟩
    · exact h.elim
  · simp [omissible, fulfil, primary] at ho
  · simp [omissible, fulfil, primary] at ho
  · simp [omissible, fulfil, primary] at ho

/-! ## Juxtaposition -/

/-- nothing beside a comma can be left out -/
def BesideL : List (Bool × Lang) → Prop
  | c :: d :: r => (d.1 = true → ¬ c.2 []) ∧ (c.1 = true → ¬ d.2 []) ∧ BesideL (d :: r)
  | _ => True

theorem BesideL.tail {c : Bool × Lang} {r : List (Bool × Lang)} (h : BesideL (c :: r)) : BesideL r := by
  cases r with
  | nil => trivial
  | cons d r => exact h.2.2

theorem segments_ne : ∀ xs : List (Bool × Lang), ∃ s ss, segments xs = s :: ss
  | [] => ⟨_, _, rfl⟩
  | (true, _) :: r => ⟨_, _, rfl⟩
  | (false, L) :: r => by
    obtain ⟨s, ss, h⟩ := segments_ne r
    exact ⟨L :: s, ss, by simp [segments, h]⟩

theorem concat_nil_cons {L : Lang} {Ls : List Lang} : Concat (L :: Ls) [] ↔ L [] ∧ Concat Ls [] := by
  constructor
  · rintro ⟨a, b, ha, hb, e⟩
    obtain ⟨rfl, rfl⟩ := List.append_eq_nil_iff.1 e.symm
    exact ⟨ha, hb⟩
  · rintro ⟨ha, hb⟩
    exact ⟨[], [], ha, hb, rfl⟩

theorem segments_beside : ∀ (xs : List (Bool × Lang)) (s : List Lang) (ss : List (List Lang)), BesideL xs → segments xs = s :: ss →
    (ss ≠ [] → s ≠ [] → ¬ Concat s []) ∧ (∀ g ∈ ss, g ≠ [] → ¬ Concat g [])
  | [], s, ss, _, h => by
    simp only [segments, List.cons.injEq] at h
    obtain ⟨rfl, rfl⟩ := h
    simp
  | (true, L) :: r, s, ss, hb, h => by
    simp only [segments, List.cons.injEq] at h
    obtain ⟨rfl, rfl⟩ := h
    refine ⟨by simp, ?_⟩
    obtain ⟨s', ss', h'⟩ := segments_ne r
    obtain ⟨h1, h2⟩ := segments_beside r s' ss' hb.tail h'
    rw [h']
    intro g hg hne
    rcases List.mem_cons.1 hg with rfl | hg
    · cases r with
      | nil => simp only [segments, List.cons.injEq] at h'; exact absurd h'.1.symm hne
      | cons d r =>
        obtain ⟨b, M⟩ := d
        cases b with
        | true => simp only [segments, List.cons.injEq] at h'; exact absurd h'.1.symm hne
        | false =>
          obtain ⟨s'', ss'', h''⟩ := segments_ne r
          simp only [segments, h'', List.cons.injEq] at h'
          rw [← h'.1, concat_nil_cons]
          intro hh
          exact hb.2.1 rfl hh.1
    · exact h2 g hg hne
  | (false, L) :: r, s, ss, hb, h => by
    obtain ⟨s', ss', h'⟩ := segments_ne r
    obtain ⟨h1, h2⟩ := segments_beside r s' ss' hb.tail h'
    simp only [segments, h', List.cons.injEq] at h
    obtain ⟨rfl, rfl⟩ := h
    refine ⟨?_, h2⟩
    intro hss _
    rw [concat_nil_cons]
    rintro ⟨hL, hs⟩
    by_cases hs' : s' = []
    · subst hs'
      cases r with
      | nil => simp only [segments, List.cons.injEq] at h'; exact hss h'.2.symm
      | cons d r =>
        obtain ⟨b, M⟩ := d
        cases b with
        | true => exact hb.1 rfl hL
        | false =>
          obtain ⟨s'', ss'', h''⟩ := segments_ne r
          simp [segments, h''] at h'
    · exact h1 hss hs' hs

theorem joined_append {sep : Lang} {a t b : List Value} {ts : List (List Value)} (h : Joined sep (t :: ts) b) :
    Joined sep ((a ++ t) :: ts) (a ++ b) := by
  cases h with
  | one => exact .one _
  | more _ s t' ts' w hs hw =>
    have := Joined.more (sep := sep) (a ++ t) s t' ts' w hs hw
    simpa [List.append_assoc] using this

theorem joined_split {sep : Lang} {a t b : List Value} {ts : List (List Value)} (h : Joined sep ((a ++ t) :: ts) b) :
    ∃ b', b = a ++ b' ∧ Joined sep (t :: ts) b' := by
  cases h with
  | one => exact ⟨t, rfl, .one _⟩
  | more _ s t' ts' w hs hw => exact ⟨t ++ s ++ w, by simp, .more _ _ _ _ _ hs hw⟩

/-- one after another, seen as segments with commas between them -/
theorem concat_segments {comma : Lang} : ∀ (xs : List (Bool × Lang)) (s : List Lang) (ss : List (List Lang)) (w : List Value),
    (∀ x ∈ xs, x.1 = true → ∀ w, x.2 w ↔ comma w) → segments xs = s :: ss →
    (Concat (xs.map (·.2)) w ↔ ∃ t ts, Concat s t ∧ List.Forall₂ Concat ss ts ∧ Joined comma (t :: ts) w)
  | [], s, ss, w, _, h => by
    simp only [segments, List.cons.injEq] at h
    obtain ⟨rfl, rfl⟩ := h
    constructor
    · intro e
      have e' : w = [] := e
      subst e'
      exact ⟨[], [], rfl, .nil, .one _⟩
    · rintro ⟨t, ts, h1, h2, h3⟩
      have : t = [] := h1
      subst this
      cases h2
      cases h3
      rfl
  | (true, L) :: r, s, ss, w, hc, h => by
    simp only [segments, List.cons.injEq] at h
    obtain ⟨rfl, rfl⟩ := h
    obtain ⟨s', ss', h'⟩ := segments_ne r
    have ih := fun w => concat_segments r s' ss' w (fun x hx => hc x (List.mem_cons_of_mem _ hx)) h'
    have hL := hc (true, L) (by simp) rfl
    rw [h']
    constructor
    · rintro ⟨a, b, ha, hb, rfl⟩
      obtain ⟨t, ts, h1, h2, h3⟩ := (ih b).1 hb
      exact ⟨[], t :: ts, rfl, .cons h1 h2, .more [] a t ts b ((hL a).1 ha) h3⟩
    · rintro ⟨t, ts, h1, h2, h3⟩
      have : t = [] := h1
      subst this
      cases h2 with
      | cons h4 h5 =>
        cases h3 with
        | more _ a _ _ b ha hb =>
          exact ⟨a, b, (hL a).2 ha, (ih b).2 ⟨_, _, h4, h5, hb⟩, by simp⟩
  | (false, L) :: r, s, ss, w, hc, h => by
    obtain ⟨s', ss', h'⟩ := segments_ne r
    have ih := fun w => concat_segments r s' ss' w (fun x hx => hc x (List.mem_cons_of_mem _ hx)) h'
    simp only [segments, h', List.cons.injEq] at h
    obtain ⟨rfl, rfl⟩ := h
    constructor
    · rintro ⟨a, b, ha, hb, rfl⟩
      obtain ⟨t, ts, h1, h2, h3⟩ := (ih b).1 hb
      exact ⟨a ++ t, ts, ⟨a, t, ha, h1, rfl⟩, h2, joined_append h3⟩
    · rintro ⟨t, ts, ⟨a, t', ha, ht, rfl⟩, h2, h3⟩
      obtain ⟨b', rfl, h4⟩ := joined_split h3
      exact ⟨a, b', ha, (ih b').2 ⟨t', ts, ht, h2, h4⟩, rfl⟩

theorem kept_all : ∀ (ss : List (List Lang)) (ts : List (List Value)), List.Forall₂ Concat ss ts →
    (∀ g ∈ ss, g ≠ [] → ¬ Concat g []) → kept ss ts = ts := by
  intro ss ts h
  induction h with
  | nil => intro _; rfl
  | @cons g t ss ts hg _ ih =>
    intro hk
    have ih := ih (fun g hg => hk g (List.mem_cons_of_mem _ hg))
    have hkeep : (g.isEmpty || !t.isEmpty) = true := by
      by_cases hge : g = []
      · simp [hge]
      · have : t ≠ [] := by
          rintro rfl
          exact hk g (by simp) hge hg
        simp [this]
    unfold kept at ih ⊢
    simp only [List.zip_cons_cons, List.filter_cons, hkeep, if_true, List.map_cons, ih]

/-- Where nothing beside a comma can be left out, a juxtaposition is one thing after another. -/
theorem juxtaposition_concat {comma : Lang} {xs : List (Bool × Lang)} (hb : BesideL xs)
    (hc : ∀ x ∈ xs, x.1 = true → ∀ w, x.2 w ↔ comma w) (w : List Value) :
    Comb.lang comma .juxtaposition xs w ↔ Concat (xs.map (·.2)) w := by
  obtain ⟨s, ss, h⟩ := segments_ne xs
  obtain ⟨hB, hC⟩ := segments_beside xs s ss hb h
  rw [concat_segments xs s ss w hc h]
  simp only [Comb.lang, h]
  constructor
  · rintro ⟨ts, hf, hj⟩
    cases hf with
    | @cons _ t _ ts h1 h2 =>
      refine ⟨t, ts, h1, h2, ?_⟩
      have hk := kept_all ss ts h2 hC
      by_cases hkeep : (s.isEmpty || !t.isEmpty) = true
      · have : kept (s :: ss) (t :: ts) = t :: ts := by
          unfold kept at hk ⊢
          simp only [List.zip_cons_cons, List.filter_cons, hkeep, if_true, List.map_cons, hk]
        rwa [this] at hj
      · have hk' : kept (s :: ss) (t :: ts) = ts := by
          unfold kept at hk ⊢
          simp only [List.zip_cons_cons, List.filter_cons, hkeep, if_false, hk, Bool.false_eq_true]
        simp only [Bool.or_eq_true, Bool.not_eq_true', not_or, Bool.not_eq_true, Bool.not_eq_false] at hkeep
        have ht : t = [] := List.isEmpty_iff.1 hkeep.2
        subst ht
        have hs : s ≠ [] := by rintro rfl; simp at hkeep
        have hss : ss = [] := by
          by_cases hss : ss = []
          · exact hss
          · exact absurd h1 (hB hss hs)
        subst hss
        cases h2
        rw [hk'] at hj
        cases hj
        exact .one _
  · rintro ⟨t, ts, h1, h2, hj⟩
    refine ⟨t :: ts, .cons h1 h2, ?_⟩
    have hk := kept_all ss ts h2 hC
    by_cases hkeep : (s.isEmpty || !t.isEmpty) = true
    · have : kept (s :: ss) (t :: ts) = t :: ts := by
        unfold kept at hk ⊢
        simp only [List.zip_cons_cons, List.filter_cons, hkeep, if_true, List.map_cons, hk]
      rwa [this]
    · have hk' : kept (s :: ss) (t :: ts) = ts := by
        unfold kept at hk ⊢
        simp only [List.zip_cons_cons, List.filter_cons, hkeep, if_false, hk, Bool.false_eq_true]
      simp only [Bool.or_eq_true, Bool.not_eq_true', not_or, Bool.not_eq_true, Bool.not_eq_false] at hkeep
      have ht : t = [] := List.isEmpty_iff.1 hkeep.2
      subst ht
      have hs : s ≠ [] := by rintro rfl; simp at hkeep
      have hss : ss = [] := by
        by_cases hss : ss = []
        · exact hss
        · exact absurd h1 (hB hss hs)
      subst hss
      cases h2
      rw [hk']
      cases hj
      exact .none

theorem sep_of_comma {c : Component} (h : c.isComma = true) (hm : c.ms = [.once]) : c.sep = true := by
  cases c with
  | leaf l ms => cases l <;> simp_all [Component.isComma, Component.sep, Component.ms]
  | function => simp [Component.isComma] at h
  | group => simp [Component.isComma] at h

theorem comma_of_sep {c : Component} (h : c.sep = true) : c.isComma = true ∧ c = .leaf (.literal [',']) [.once] := by
  cases c with
  | leaf l ms => cases l <;> simp_all [Component.isComma, Component.sep]
  | function => simp [Component.sep] at h
  | group => simp [Component.sep] at h

theorem beside_items {leaf : Leaf → Value → Prop} : ∀ cs : List Component, Beside leaf cs → BesideL (items leaf cs)
  | [], _ => trivial
  | [c], _ => trivial
  | c :: d :: r, h => by
    have ih := beside_items (d :: r) h.2.2
    simp only [items] at ih ⊢
    exact ⟨fun hs => h.1 (comma_of_sep hs).1, fun hs => h.2.1 (comma_of_sep hs).1, ih⟩

theorem items_comma {leaf : Leaf → Value → Prop} : ∀ (cs : List Component), ∀ x ∈ items leaf cs, x.1 = true →
    ∀ w, x.2 w ↔ leafLang leaf (.literal [',']) w
  | [], x, hx, _, w => by simp [items] at hx
  | c :: cs, x, hx, hs, w => by
    simp only [items, List.mem_cons] at hx
    rcases hx with rfl | hx
    · rw [(comma_of_sep hs).2]
      rfl
    · exact items_comma cs x hx hs w

/-- the languages of some components -/
def langs (leaf : Leaf → Value → Prop) (cs : List Component) : List Lang := (items leaf cs).map (·.2)

theorem langs_cons (leaf : Leaf → Value → Prop) (c : Component) (cs : List Component) :
    langs leaf (c :: cs) = c.lang leaf :: langs leaf cs := rfl

theorem group_concat {leaf : Leaf → Value → Prop} {cs : List Component} (h : Commas leaf cs) (w : List Value) :
    Comb.lang (leafLang leaf (.literal [','])) .juxtaposition (items leaf cs) w ↔ Concat (langs leaf cs) w :=
  juxtaposition_concat (beside_items cs h.2) (items_comma cs) w

/-- each sound before what follows, the last sound at the end -/
def SeqSound (env : Env) (n : Nat) : List Component → Prop
  | [] => True
  | [c] => SoundEnd (c.run env n) (c.lang (Stands env))
  | c :: cs => SoundOpen (c.run env n) (c.lang (Stands env)) ∧ SeqSound env n cs

theorem Beside.tail {leaf : Leaf → Value → Prop} {c : Component} {r : List Component} (h : Beside leaf (c :: r)) : Beside leaf r := by
  cases r with
  | nil => trivial
  | cons d r => exact h.2.2

/-- the first is not a comma -/
def HeadFree : List Component → Prop
  | c :: _ => c.isComma = false
  | [] => True

/-- A comma that does not match makes the sequence fail. -/
theorem comma_fails {leaf : Leaf → Value → Prop} {env : Env} {n : Nat} {c : Component} {cs : List Component} {input : List Value}
    (hom : ∀ d ∈ cs, omissible d.ms = true → d.lang leaf []) (hb : Beside leaf (c :: cs)) (hc : c.isComma = true)
    {prev : Bool} (hp : prev = true) (hr : c.run env n input = .fail) : juxtapose (parts env n (c :: cs)) prev input = .fail := by
  simp only [parts, juxtapose, hr, hc, if_true, hp, Bool.not_true, Bool.false_eq_true, if_false]
  cases cs with
  | nil => simp [parts]
  | cons d r =>
    have hd : omissible d.ms = false := by
      cases ho : omissible d.ms with
      | false => rfl
      | true => exact absurd (hom d (by simp) ho) (hb.2.1 hc)
    simp [parts, hd]

theorem prev_next {leaf : Leaf → Value → Prop} {c : Component} {cs : List Component} {input r : List Value} (hb : Beside leaf (c :: cs))
    (hw : ∃ w, c.lang leaf w ∧ input = w ++ r) : decide (r.length < input.length) = true ∨ HeadFree cs := by
  cases cs with
  | nil => exact .inr trivial
  | cons d ds =>
    by_cases hd : d.isComma = true
    · left
      obtain ⟨w, hw, rfl⟩ := hw
      have hne : w ≠ [] := by
        rintro rfl
        exact hb.1 hd hw
      have := List.length_pos_iff.2 hne
      simp
      omega
    · right
      simpa [HeadFree] using hd

theorem jux_open (env : Env) (n : Nat) : ∀ (cs : List Component) (prev : Bool) (input r : List Value),
    (∀ c ∈ cs, SoundOpen (c.run env n) (c.lang (Stands env))) → (∀ c ∈ cs, omissible c.ms = true → c.lang (Stands env) []) →
    Beside (Stands env) cs → (prev = true ∨ HeadFree cs) → juxtapose (parts env n cs) prev input = .ok r →
    ∃ w, Concat (langs (Stands env) cs) w ∧ input = w ++ r := by
  intro cs
  induction cs with
  | nil =>
    intro prev input r _ _ _ _ e
    simp only [parts, juxtapose, Res.ok.injEq] at e
    subst e
    exact ⟨[], rfl, rfl⟩
  | cons c cs ih =>
    intro prev input r hs hom hb hp e
    cases hr : c.run env n input with
    | ok r' =>
      simp only [parts, juxtapose, hr] at e
      have hw := hs c (by simp) _ _ hr
      obtain ⟨w', hw', e'⟩ := ih _ _ _ (fun d hd => hs d (List.mem_cons_of_mem _ hd)) (fun d hd => hom d (List.mem_cons_of_mem _ hd))
        hb.tail (prev_next hb hw) e
      obtain ⟨w, hw, rfl⟩ := hw
      exact ⟨w ++ w', ⟨w, w', hw, hw', rfl⟩, by rw [e', List.append_assoc]⟩
    | fail =>
      by_cases hc : c.isComma = true
      · have hp' : prev = true := by
          rcases hp with h | h
          · exact h
          · simp [HeadFree, hc] at h
        rw [comma_fails (fun d hd => hom d (List.mem_cons_of_mem _ hd)) hb hc hp' hr] at e
        cases e
      · simp [parts, juxtapose, hr, hc] at e
    | panic => simp [parts, juxtapose, hr] at e
    | cut => simp [parts, juxtapose, hr] at e

theorem jux_end (env : Env) (n : Nat) : ∀ (cs : List Component) (prev : Bool) (input : List Value),
    SeqSound env n cs → (∀ c ∈ cs, omissible c.ms = true → c.lang (Stands env) []) →
    Beside (Stands env) cs → (prev = true ∨ HeadFree cs) → juxtapose (parts env n cs) prev input = .ok [] →
    Concat (langs (Stands env) cs) input := by
  intro cs
  induction cs with
  | nil =>
    intro prev input _ _ _ _ e
    simp only [parts, juxtapose, Res.ok.injEq] at e
    exact e
  | cons c cs ih =>
    intro prev input hs hom hb hp e
    cases hr : c.run env n input with
    | ok r' =>
      simp only [parts, juxtapose, hr] at e
      cases cs with
      | nil =>
        simp only [parts, juxtapose, Res.ok.injEq] at e
        subst e
        exact ⟨input, [], hs _ hr, rfl, by simp⟩
      | cons d ds =>
        have hw := hs.1 _ _ hr
        have h2 := ih _ _ hs.2 (fun d hd => hom d (List.mem_cons_of_mem _ hd)) hb.tail (prev_next hb hw) e
        obtain ⟨w, hw, rfl⟩ := hw
        exact ⟨w, r', hw, h2, rfl⟩
    | fail =>
      by_cases hc : c.isComma = true
      · have hp' : prev = true := by
          rcases hp with h | h
          · exact h
          · simp [HeadFree, hc] at h
        rw [comma_fails (fun d hd => hom d (List.mem_cons_of_mem _ hd)) hb hc hp' hr] at e
        cases e
      · simp [parts, juxtapose, hr, hc] at e
    | panic => simp [parts, juxtapose, hr] at e
    | cut => simp [parts, juxtapose, hr] at e

/-! ## Any order -/

theorem concat_append : ∀ (As Bs : List Lang) (a b : List Value), Concat As a → Concat Bs b → Concat (As ++ Bs) (a ++ b)
  | [], Bs, a, b, ha, hb => by
    have : a = [] := ha
    subst this
    simpa using hb
  | A :: As, Bs, a, b, ⟨x, y, hx, hy, e⟩, hb => by
    subst e
    exact ⟨x, y ++ b, hx, concat_append As Bs y b hy hb, by simp⟩

/-- a component with its language -/
abbrev Paired := Part × (Bool × Lang)

theorem pass_sound {need : Bool} : ∀ (k : Nat) (xs : List Paired) (input r : List Value) (left : List Part),
    (∀ x ∈ xs, SoundOpen x.1.run x.2.2) → pass need k (xs.map (·.1)) input = .ok (r, left) →
    ∃ ys zs : List Paired, (ys ++ zs).Perm xs ∧ left = zs.map (·.1) ∧ ∃ w, Concat (ys.map (·.2.2)) w ∧ input = w ++ r := by
  intro k
  induction k with
  | zero =>
    intro xs input r left _ e
    simp only [pass, Except.ok.injEq, Prod.mk.injEq] at e
    obtain ⟨rfl, rfl⟩ := e
    exact ⟨[], xs, .refl _, rfl, [], rfl, rfl⟩
  | succ k ih =>
    intro xs input r left hs e
    unfold pass at e
    split at e
    · cases e; exact ⟨[], xs, .refl _, rfl, [], rfl, rfl⟩
    · split at e
      · cases e; exact ⟨[], xs, .refl _, rfl, [], rfl, rfl⟩
      · rename_i r' ps' hsc
        obtain ⟨a, p, b, h1, h2, h3, _⟩ := scan_claimed _ _ _ _ hsc
        obtain ⟨xa, xb', rfl, rfl, hb'⟩ := List.map_eq_append_iff.1 h1
        obtain ⟨x, xb, rfl, rfl, rfl⟩ := List.map_eq_cons_iff.1 hb'
        simp only [List.nil_append] at h2
        have h2' : ps' = (xa ++ xb).map (·.1) := by rw [h2, List.map_append]
        rw [h2'] at e
        obtain ⟨ys, zs, hp, hl, w, hw, hin⟩ := ih _ _ _ _ (fun y hy => hs y (by
          simp only [List.mem_append, List.mem_cons] at hy ⊢; tauto)) e
        obtain ⟨v, hv, hin'⟩ := hs x (by simp) _ _ h3
        refine ⟨x :: ys, zs, ?_, hl, v ++ w, ⟨v, w, hv, hw, rfl⟩, by rw [hin', hin, List.append_assoc]⟩
        exact (hp.cons x).trans List.perm_middle.symm
      · cases e
      · cases e

/-- the components of a group with their languages -/
def paired (env : Env) (n : Nat) (cs : List Component) : List Paired := (parts env n cs).zip (items (Stands env) cs)

theorem paired_cons (env : Env) (n : Nat) (c : Component) (cs : List Component) : paired env n (c :: cs) =
    ((⟨c.ms, c.isComma, c.run env n⟩, (c.sep, c.lang (Stands env))) : Paired) :: paired env n cs := rfl

theorem paired_fst (env : Env) (n : Nat) : ∀ cs, (paired env n cs).map (·.1) = parts env n cs
  | [] => rfl
  | c :: cs => by rw [paired_cons, List.map_cons, paired_fst env n cs, parts]

theorem paired_snd (env : Env) (n : Nat) : ∀ cs, (paired env n cs).map (·.2) = items (Stands env) cs
  | [] => rfl
  | c :: cs => by rw [paired_cons, List.map_cons, paired_snd env n cs, items]

theorem mem_paired (env : Env) (n : Nat) : ∀ cs, ∀ x ∈ paired env n cs, ∃ c ∈ cs,
    x = (⟨c.ms, c.isComma, c.run env n⟩, (c.sep, c.lang (Stands env)))
  | [], x, h => by simp [paired, parts] at h
  | d :: cs, x, h => by
    rw [paired_cons] at h
    rcases List.mem_cons.1 h with rfl | h
    · exact ⟨d, by simp, rfl⟩
    · obtain ⟨c, hc, e⟩ := mem_paired env n cs x h
      exact ⟨c, List.mem_cons_of_mem _ hc, e⟩

theorem rotated_paired (env : Env) (n : Nat) (cs : List Component) (o : Nat) :
    ∃ xs : List Paired, xs.Perm (paired env n cs) ∧ xs.map (·.1) = rotated (parts env n cs) o := by
  refine ⟨(paired env n cs).drop o ++ (paired env n cs).take o, ?_, ?_⟩
  · exact List.perm_append_comm.trans (by rw [List.take_append_drop])
  · rw [List.map_append, List.map_drop, List.map_take, paired_fst]
    rfl

theorem concat_empties : ∀ zs : List Lang, (∀ L ∈ zs, L []) → Concat zs []
  | [], _ => rfl
  | L :: zs, h => ⟨[], [], h L (by simp), concat_empties zs (fun M hM => h M (List.mem_cons_of_mem _ hM)), rfl⟩

theorem comb_open (env : Env) (n : Nat) (comb : Comb) (cs : List Component) (hj : comb = .juxtaposition → Commas (Stands env) cs)
    (hs : ∀ c ∈ cs, SoundOpen (c.run env n) (c.lang (Stands env))) (hom : ∀ c ∈ cs, omissible c.ms = true → c.lang (Stands env) []) :
    SoundOpen (comb.run (parts env n cs)) (comb.lang (leafLang (Stands env) (.literal [','])) (items (Stands env) cs)) := by
  have hs' : ∀ x ∈ paired env n cs, SoundOpen x.1.run x.2.2 := by
    intro x hx
    obtain ⟨c, hc, rfl⟩ := mem_paired env n cs x hx
    exact hs c hc
  intro input r e
  cases comb with
  | juxtaposition =>
    have hc := hj rfl
    obtain ⟨w, hw, rfl⟩ := jux_open env n cs true input r hs hom hc.2 (.inl rfl) e
    exact ⟨w, (group_concat hc w).2 hw, rfl⟩
  | exactlyOne =>
    rcases oneOf_ok _ _ _ _ e with h | ⟨⟨p, hp, h⟩, _⟩
    · cases h
    · rw [← paired_fst] at hp
      obtain ⟨x, hx, rfl⟩ := List.mem_map.1 hp
      obtain ⟨w, hw, rfl⟩ := hs' x hx _ _ h
      refine ⟨w, ⟨x.2, ?_, hw⟩, rfl⟩
      rw [← paired_snd env n]
      exact List.mem_map_of_mem hx
  | allAnyOrder =>
    rcases bestAttempt_ok _ _ _ e with h | ⟨o, _, h⟩
    · cases h
    · obtain ⟨left, h, hl⟩ := allAnyPass_ok h
      obtain ⟨xs, hxp, hxm⟩ := rotated_paired env n cs o
      rw [← hxm] at h
      obtain ⟨ys, zs, hp, rfl, w, hw, rfl⟩ := pass_sound _ xs _ _ _ (fun x hx => hs' x (hxp.mem_iff.1 hx)) h
      refine ⟨w, ⟨(ys ++ zs).map (·.2), ?_, ?_⟩, rfl⟩
      · rw [← paired_snd env n]
        exact (hp.trans hxp).map _
      · have hz : Concat (zs.map (·.2.2)) [] := by
          apply concat_empties
          intro L hL
          obtain ⟨z, hz, rfl⟩ := List.mem_map.1 hL
          have hzp : z ∈ paired env n cs := (hp.trans hxp).mem_iff.1 (List.mem_append_right _ hz)
          obtain ⟨c, hc, rfl⟩ := mem_paired env n cs z hzp
          exact hom c hc (hl _ (List.mem_map_of_mem hz))
        have := concat_append _ _ _ _ hw hz
        simpa [List.map_append, List.map_map, Function.comp_def] using this
  | atLeastOneAnyOrder =>
    rcases bestAttempt_ok _ _ _ e with h | ⟨o, _, h⟩
    · cases h
    · obtain ⟨left, h, hl⟩ := oneAnyPass_ok h
      obtain ⟨xs, hxp, hxm⟩ := rotated_paired env n cs o
      rw [← hxm] at h hl
      obtain ⟨ys, zs, hp, rfl, w, hw, rfl⟩ := pass_sound _ xs _ _ _ (fun x hx => hs' x (hxp.mem_iff.1 hx)) h
      refine ⟨w, ⟨ys.map (·.2), zs.map (·.2), ?_, ?_, ?_⟩, rfl⟩
      · intro hy
        have hy' : ys = [] := List.map_eq_nil_iff.1 hy
        subst hy'
        apply hl
        have := hp.length_eq
        simp at this
        simp [this]
      · rw [← List.map_append, ← paired_snd env n]
        exact (hp.trans hxp).map _
      · simpa [List.map_map, Function.comp_def] using hw

/-! ## Grammars -/

theorem takes_stands {env : Env} {l : Leaf} {v : Value} (h : l.takes env v = some true) : Stands env l v := by
  refine ⟨1, ?_⟩
  show component [.once] (single env l) 1 [v] = .ok []
  show inner [.once] (single env l) 1 0 [v] = .ok []
  unfold inner
  simp [single_cons, h, fulfil, primary]

theorem single_open (env : Env) (l : Leaf) : SoundOpen (single env l) (leafLang (Stands env) l) := by
  intro input r e
  cases input with
  | nil => simp [single] at e
  | cons v w =>
    rw [single_cons] at e
    split at e
    · rename_i ht
      cases e
      exact ⟨[v], ⟨v, rfl, takes_stands ht⟩, rfl⟩
    · cases e
    · cases e

theorem firm_ends {leaf : Leaf → Value → Prop} {c : Component} (h : Firm leaf c) : Plain c.ms := by
  cases c with
  | leaf l ms => simpa [Firm, Component.ms] using h
  | function name args ms => rw [Firm] at h; exact h.1
  | group comb cs ms => rw [Firm] at h; exact h.1

theorem closed_ends {leaf : Leaf → Value → Prop} {c : Component} (h : Closed leaf c) : Ends c.ms := by
  cases c with
  | leaf l ms => simpa [Closed, Component.ms] using h
  | function name args ms => rw [Closed] at h; exact h.1
  | group comb cs ms =>
    rw [Closed] at h
    rcases h.2 with h | h
    · exact h.1
    · rcases h.1 with rfl | rfl | rfl
      · exact .inl trivial
      · exact .inl trivial
      · exact .inr (.inl rfl)

theorem lang_omissible {leaf : Leaf → Value → Prop} {c : Component} (h : Ends c.ms) (ho : omissible c.ms = true) : c.lang leaf [] := by
  cases c with
  | leaf l ms => rw [Component.lang]; exact omissible_lang h ho _
  | function name args ms => rw [Component.lang]; exact omissible_lang h ho _
  | group comb cs ms => rw [Component.lang]; exact omissible_lang h ho _

theorem firmAll_mem {leaf : Leaf → Value → Prop} : ∀ {cs : List Component}, FirmAll leaf cs → ∀ c ∈ cs, Firm leaf c
  | [], _, c, h => by simp at h
  | d :: cs, hf, c, h => by
    rw [FirmAll] at hf
    rcases List.mem_cons.1 h with rfl | h
    · exact hf.1
    · exact firmAll_mem hf.2 c h

theorem closedSeq_mem {leaf : Leaf → Value → Prop} : ∀ {cs : List Component}, ClosedSeq leaf cs → ∀ c ∈ cs, Ends c.ms
  | [], _, c, h => by simp at h
  | [d], hf, c, h => by
    rw [ClosedSeq] at hf
    rw [List.mem_singleton] at h
    subst h
    exact closed_ends hf
  | d :: e :: cs, hf, c, h => by
    rw [ClosedSeq] at hf
    · rcases List.mem_cons.1 h with rfl | h
      · exact .inl (firm_ends hf.1)
      · exact closedSeq_mem hf.2 c h
    · simp

mutual
theorem run_open (env : Env) (n : Nat) : ∀ c : Component, Firm (Stands env) c → SoundOpen (c.run env n) (c.lang (Stands env))
  | .leaf l ms, h => by
    rw [Firm] at h
    unfold Component.run Component.lang
    exact component_open h (single_open env l) n
  | .function name args ms, h => by
    rw [Firm] at h
    unfold Component.run Component.lang
    refine component_open h.1 ?_ n
    intro input r e
    obtain ⟨c, vs, rfl, hc, ha⟩ := call_ok e
    exact ⟨[.function c vs], ⟨c, vs, rfl, hc, run_end env n args h.2 vs ha⟩, rfl⟩
  | .group comb cs ms, h => by
    rw [Firm] at h
    unfold Component.run Component.lang
    exact component_open h.1 (comb_open env n comb cs h.2.2 (all_open env n cs h.2.1)
      (fun c hc ho => lang_omissible (.inl (firm_ends (firmAll_mem h.2.1 c hc))) ho)) n

theorem run_end (env : Env) (n : Nat) : ∀ c : Component, Closed (Stands env) c → SoundEnd (c.run env n) (c.lang (Stands env))
  | .leaf l ms, h => by
    rw [Closed] at h
    unfold Component.run Component.lang
    exact component_end h (single_open env l) n
  | .function name args ms, h => by
    rw [Closed] at h
    unfold Component.run Component.lang
    refine component_end h.1 ?_ n
    intro input r e
    obtain ⟨c, vs, rfl, hc, ha⟩ := call_ok e
    exact ⟨[.function c vs], ⟨c, vs, rfl, hc, run_end env n args h.2 vs ha⟩, rfl⟩
  | .group comb cs ms, h => by
    rw [Closed] at h
    obtain ⟨hj, h⟩ := h
    unfold Component.run Component.lang
    rcases h with ⟨he, hf⟩ | ⟨hms, ⟨rfl, hq⟩ | ⟨rfl, hq⟩⟩
    · exact component_end he (comb_open env n comb cs hj (all_open env n cs hf)
        (fun c hc ho => lang_omissible (.inl (firm_ends (firmAll_mem hf c hc))) ho)) n
    · refine component_last hms ?_ n
      intro input e
      rw [group_concat (hj rfl)]
      exact jux_end env n cs true input (seq_end env n cs hq)
        (fun c hc ho => lang_omissible (closedSeq_mem hq c hc) ho) (hj rfl).2 (.inl rfl) e
    · refine component_last hms ?_ n
      intro input e
      rcases oneOf_ok _ _ _ _ e with h | ⟨⟨p, hp, h⟩, _⟩
      · cases h
      · obtain ⟨x, hx, hxi⟩ := all_end env n cs hq p hp
        exact ⟨x, hx, hxi input h⟩

theorem all_open (env : Env) (n : Nat) : ∀ cs : List Component, FirmAll (Stands env) cs →
    ∀ c ∈ cs, SoundOpen (c.run env n) (c.lang (Stands env))
  | [], _ => by simp
  | d :: cs, h => by
    rw [FirmAll] at h
    have h1 := run_open env n d h.1
    have h2 := all_open env n cs h.2
    intro c hc
    rcases List.mem_cons.1 hc with rfl | hc
    · exact h1
    · exact h2 c hc

theorem all_end (env : Env) (n : Nat) : ∀ cs : List Component, ClosedAll (Stands env) cs →
    ∀ p ∈ parts env n cs, ∃ i ∈ items (Stands env) cs, SoundEnd p.run i.2
  | [], _ => by simp [parts]
  | d :: cs, h => by
    rw [ClosedAll] at h
    intro p hp
    simp only [parts, List.mem_cons] at hp
    simp only [items, List.mem_cons]
    rcases hp with rfl | hp
    · exact ⟨_, .inl rfl, run_end env n d h.1⟩
    · obtain ⟨i, hi, he⟩ := all_end env n cs h.2 p hp
      exact ⟨i, .inr hi, he⟩

theorem seq_end (env : Env) (n : Nat) : ∀ cs : List Component, ClosedSeq (Stands env) cs → SeqSound env n cs
  | [], _ => trivial
  | c :: cs, h => by
    have ih := seq_end env n cs
    have ho := run_open env n c
    have he := run_end env n c
    cases cs with
    | nil =>
      rw [ClosedSeq] at h
      exact he h
    | cons d cs =>
      rw [ClosedSeq] at h
      · exact ⟨ho h.1, ih h.2⟩
      · simp
end

end Verif.Grammar
