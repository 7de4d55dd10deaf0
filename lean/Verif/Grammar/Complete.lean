import Verif.Grammar.Sound

/-!
# What is in the grammar is accepted, where the next value decides
-/

namespace Verif.Grammar
open Verif

/-- the end, or a value that may follow -/
def Follows (F : Value → Prop) : List Value → Prop
  | [] => True
  | v :: _ => F v

/-- The first value is one of these. -/
def HeadIn (B : Value → Prop) : List Value → Prop
  | [] => False
  | v :: _ => B v

/-- The matcher takes exactly what is there. -/
structure Exact (K : Nat) (m : Matcher) (L : Lang) (F : Value → Prop) : Prop where
  pos : ∀ w r, L w → Follows F r → deeps (w ++ r) ≤ K → m (w ++ r) = .ok r
  skip : ∀ input, deeps input ≤ K → ¬ HeadIn (Begins L) input → L [] → m input = .ok input
  stop : ∀ input, deeps input ≤ K → ¬ HeadIn (Begins L) input → ¬ L [] → m input = .fail

theorem Exact.mono {K : Nat} {m : Matcher} {L : Lang} {F G : Value → Prop} (h : Exact K m L G) (hF : ∀ v, F v → G v) : Exact K m L F :=
  ⟨fun w r hw hr hd => h.pos w r hw (by cases r with
    | nil => trivial
    | cons v r => exact hF v hr) hd, h.skip, h.stop⟩

theorem headIn_of_mem {L : Lang} {w r : List Value} (hw : L w) (hne : w ≠ []) : HeadIn (Begins L) (w ++ r) := by
  cases w with
  | nil => exact absurd rfl hne
  | cons v w => exact ⟨w, hw⟩

theorem follows_apart {B F : Value → Prop} {r : List Value} (h : Apart B F) (hr : Follows F r) : ¬ HeadIn B r := by
  cases r with
  | nil => exact id
  | cons v r => exact fun hb => h v hb hr

/-! ## Multipliers -/

theorem inner_pos {K : Nat} {ms : List Mult} {m : Matcher} {L : Lang} {F : Value → Prop} (hm : Exact K m L F) (hL : ¬ L []) :
    ∀ (ps : List (List Value)) (cnt n : Nat) (r : List Value), (∀ p ∈ ps, L p) → deeps (ps.flatten ++ r) ≤ K → ps.length < n →
    (Follows F r) → (1 < ps.length → ∀ v, Begins L v → F v) →
    (∀ j, cnt < j → j < cnt + ps.length → fulfil ms j = .notYet ∨ fulfil ms j = .more) →
    ((fulfil ms (cnt + ps.length) = .done ∧ ps ≠ []) ∨ (fulfil ms (cnt + ps.length) = .more ∧ ¬ HeadIn (Begins L) r)) →
    (ps = [] → r = [] → omissible ms = true) → inner ms m n cnt (ps.flatten ++ r) = .ok r := by
  intro ps
  induction ps with
  | nil =>
    intro cnt n r _ hd hn hr _ _ h2 h3
    obtain ⟨n, rfl⟩ : ∃ k, n = k + 1 := ⟨n - 1, by simp at hn; omega⟩
    simp only [List.flatten_nil, List.nil_append] at hd ⊢
    unfold inner
    cases r with
    | nil => simp [h3 rfl rfl]
    | cons v r =>
      rcases h2 with h2 | ⟨h2, h4⟩
      · exact absurd rfl h2.2
      · rw [hm.stop _ hd h4 hL]
        simp only [List.length_nil, Nat.add_zero] at h2
        simp [h2]
  | cons p ps ih =>
    intro cnt n r hps hd hn hr hB h1 h2 _
    obtain ⟨n, rfl⟩ : ∃ k, n = k + 1 := ⟨n - 1, by simp at hn; omega⟩
    have hp : L p := hps p (by simp)
    have hps' : ∀ q ∈ ps, L q := fun q hq => hps q (List.mem_cons_of_mem _ hq)
    have hpne : p ≠ [] := by rintro rfl; exact hL hp
    have hfl : ps ≠ [] → ps.flatten ++ r ≠ [] := by
      intro hne
      cases ps with
      | nil => exact absurd rfl hne
      | cons q qs =>
        have : q ≠ [] := by rintro rfl; exact hL (hps' [] (by simp))
        simp [this]
    simp only [List.flatten_cons, List.append_assoc] at hd ⊢
    have hd' : deeps (ps.flatten ++ r) ≤ K := by rw [deeps_append] at hd; omega
    have hfo : Follows F (ps.flatten ++ r) := by
      cases ps with
      | nil => simpa using hr
      | cons q qs =>
        have hq : L q := hps' q (by simp)
        have hqne : q ≠ [] := by rintro rfl; exact hL hq
        cases q with
        | nil => exact absurd rfl hqne
        | cons v q => exact hB (by simp) v ⟨q, hq⟩
    have hrun := hm.pos p (ps.flatten ++ r) hp hfo hd
    have hne : (p ++ (ps.flatten ++ r)).isEmpty = false := by simp [hpne]
    have e1 : cnt + (p :: ps).length = cnt + 1 + ps.length := by simp only [List.length_cons]; omega
    rw [e1] at h1 h2
    have hB' : 1 < ps.length → ∀ v, Begins L v → F v := fun h => hB (by simp only [List.length_cons]; omega)
    have h1' : ∀ j, cnt + 1 < j → j < cnt + 1 + ps.length → fulfil ms j = .notYet ∨ fulfil ms j = .more :=
      fun j hj hj' => h1 j (by omega) hj'
    have hn' : ps.length < n := by simp only [List.length_cons] at hn; omega
    unfold inner
    simp only [hne, Bool.false_eq_true, if_false, hrun]
    by_cases hnil : ps = []
    · subst hnil
      simp only [List.flatten_nil, List.nil_append, List.length_nil, Nat.add_zero] at h2 hd' ⊢
      rcases h2 with h2 | ⟨h2, h4⟩
      · simp [h2.1]
      · simp only [h2]
        split
        · rfl
        · rename_i hre
          have := ih (cnt + 1) n r hps' (by simpa using hd') hn' hr hB' h1' (.inr ⟨by simpa using h2, h4⟩)
            (fun _ h => by simp [h] at hre)
          simpa using this
    · have hlen : 0 < ps.length := List.length_pos_iff.2 hnil
      have h2' : (fulfil ms (cnt + 1 + ps.length) = .done ∧ ps ≠ []) ∨
          (fulfil ms (cnt + 1 + ps.length) = .more ∧ ¬ HeadIn (Begins L) r) := by
        rcases h2 with h | h
        · exact .inl ⟨h.1, hnil⟩
        · exact .inr h
      have hrec := ih (cnt + 1) n r hps' hd' hn' hr hB' h1' h2' (fun h => absurd h hnil)
      rcases h1 (cnt + 1) (by omega) (by omega) with hf | hf
      · simp only [hf]; exact hrec
      · simp only [hf]
        have : (ps.flatten ++ r).isEmpty = false := by
          have := hfl hnil
          cases h : (ps.flatten ++ r).isEmpty with
          | false => rfl
          | true => exact absurd (List.isEmpty_iff.1 h) this
        simp only [this, Bool.false_eq_true, if_false]
        exact hrec

theorem inner_stop {K : Nat} {ms : List Mult} {m : Matcher} {L : Lang} {F : Value → Prop} (hm : Exact K m L F) (hL : ¬ L []) {n : Nat}
    (hn : 0 < n) (input : List Value) (hd : deeps input ≤ K) (hh : ¬ HeadIn (Begins L) input)
    (hz : fulfil ms 0 = .notYet ∨ fulfil ms 0 = .more) :
    inner ms m n 0 input = if omissible ms then .ok input else .fail := by
  obtain ⟨n, rfl⟩ : ∃ k, n = k + 1 := ⟨n - 1, by omega⟩
  unfold inner
  cases input with
  | nil => simp
  | cons v input =>
    rw [hm.stop _ hd hh hL]
    rcases hz with hz | hz <;> simp [hz, omissible]

/-- a piece of a list separated by commas -/
theorem piece_exact {K : Nat} {ms : List Mult} (hp : primary ms = .once) {m : Matcher} {L : Lang} {F : Value → Prop}
    (hm : Exact K m L F) (hL : ¬ L []) {n : Nat} (hn : 1 < n) : Exact K (inner ms m n 0) L F := by
  have f0 : fulfil ms 0 = .notYet := by simp [fulfil, hp]
  have f1 : fulfil ms 1 = .done := by simp [fulfil, hp]
  have ho : omissible ms = false := by simp [omissible, f0]
  refine ⟨?_, fun _ _ _ h => absurd h hL, ?_⟩
  · intro w r hw hr hd
    have := inner_pos (ms := ms) hm hL [w] 0 n r (by simpa using hw) (by simpa using hd) (by simpa using hn) hr
      (by simp) (by intro j h h'; simp at h'; omega) (.inl ⟨by simpa using f1, by simp⟩) (by simp)
    simpa using this
  · intro input hd hh _
    rw [inner_stop hm hL (by omega) input hd hh (.inl f0), ho]
    rfl

theorem deeps_comma (r : List Value) : deeps (.comma :: r) = 1 + deeps r := by simp [deeps, deep]

theorem csvLoop_pos {K a b : Nat} {piece : Matcher} {L : Lang} {F : Value → Prop} (hp : Exact K piece L fun v => F v ∨ v = .comma)
    (hL : ¬ L []) (hF : ¬ F .comma) : ∀ (ps : List (List Value)) (w : List Value) (cnt n : Nat) (r : List Value),
    Joined (· = [.comma]) ps w → ps ≠ [] → (∀ p ∈ ps, L p) → Follows F r → deeps (w ++ r) ≤ K → ps.length ≤ n →
    a ≤ cnt + ps.length → cnt + ps.length ≤ b → csvLoop a b piece n cnt (w ++ r) = .ok r := by
  intro ps w cnt n r hj
  induction hj generalizing cnt n with
  | none => intro h; exact absurd rfl h
  | one t =>
    intro _ hps hr hd hn ha hb
    obtain ⟨n, rfl⟩ : ∃ k, n = k + 1 := ⟨n - 1, by simp at hn; omega⟩
    have hrun := hp.pos t r (hps t (by simp)) (by cases r with
      | nil => trivial
      | cons v r => exact .inl hr) hd
    unfold csvLoop
    simp only [List.length_singleton] at ha hb
    rw [hrun]
    simp only
    split
    · exact absurd hr hF
    · simp [counted, ha, hb]
  | more t s t' ts w hs hj ih =>
    intro _ hps hr hd hn ha hb
    obtain ⟨n, rfl⟩ : ∃ k, n = k + 1 := ⟨n - 1, by simp at hn; omega⟩
    subst hs
    have e : t ++ [Value.comma] ++ w ++ r = t ++ (.comma :: (w ++ r)) := by simp
    rw [e] at hd ⊢
    have hrun := hp.pos t (.comma :: (w ++ r)) (hps t (by simp)) (.inr rfl) hd
    have hwne : w ++ r ≠ [] := by
      have ht' : t' ≠ [] := by rintro rfl; exact hL (hps [] (by simp))
      cases hj with
      | one => simp [ht']
      | more => simp [ht']
    rw [deeps_append, deeps_comma] at hd
    have hrec := ih (cnt + 1) n (by simp) (fun p hp => hps p (List.mem_cons_of_mem _ hp)) hr (by omega)
      (by simp only [List.length_cons] at hn ⊢; omega) (by simp only [List.length_cons] at ha ⊢; omega)
      (by simp only [List.length_cons] at hb ⊢; omega)
    unfold csvLoop
    rw [hrun]
    have hfalse : (w ++ r).isEmpty = false := by
      cases h : (w ++ r).isEmpty with
      | false => rfl
      | true => exact absurd (List.isEmpty_iff.1 h) hwne
    simp only [hfalse, Bool.false_eq_true, if_false]
    exact hrec

/-- pieces that are not empty are no more than what they make -/
theorem pieces_length {L : Lang} (hL : ¬ L []) : ∀ ps : List (List Value), (∀ p ∈ ps, L p) → ps.length ≤ ps.flatten.length
  | [], _ => by simp
  | p :: ps, h => by
    have := pieces_length hL ps (fun q hq => h q (List.mem_cons_of_mem _ hq))
    have hp : p ≠ [] := by rintro rfl; exact hL (h [] (by simp))
    have := List.length_pos_iff.2 hp
    simp only [List.length_cons, List.flatten_cons, List.length_append]
    omega

theorem joined_length {sep L : Lang} (hL : ¬ L []) {ps : List (List Value)} {w : List Value} (hj : Joined sep ps w)
    (h : ∀ p ∈ ps, L p) : ps.length ≤ w.length := by
  induction hj with
  | none => simp
  | one t =>
    have hp : t ≠ [] := by rintro rfl; exact hL (h [] (by simp))
    have := List.length_pos_iff.2 hp
    simp only [List.length_cons, List.length_nil]
    omega
  | more t s t' ts w hs hj ih =>
    have := ih (fun p hp => h p (List.mem_cons_of_mem _ hp))
    have hp : t ≠ [] := by rintro rfl; exact hL (h [] (by simp))
    have := List.length_pos_iff.2 hp
    simp only [List.length_cons, List.length_append] at *
    omega

theorem flatten_replicate {L : Lang} {v : Value} {w : List Value} (h : L (v :: w)) (k : Nat) :
    (∀ p ∈ List.replicate (k + 1) (v :: w), L p) ∧ ∃ x, (List.replicate (k + 1) (v :: w)).flatten = v :: x := by
  refine ⟨fun p hp => by rw [List.eq_of_mem_replicate hp]; exact h, ?_⟩
  rw [List.replicate_succ, List.flatten_cons]
  exact ⟨_, rfl⟩

theorem joined_replicate (v : Value) (w : List Value) : ∀ k : Nat,
    ∃ x, Joined (· = [Value.comma]) (List.replicate (k + 1) (v :: w)) (v :: x)
  | 0 => ⟨w, .one _⟩
  | k + 1 => by
    obtain ⟨x, hx⟩ := joined_replicate v w k
    refine ⟨w ++ [.comma] ++ (v :: x), ?_⟩
    rw [List.replicate_succ] at hx
    rw [List.replicate_succ, List.replicate_succ]
    have := Joined.more (sep := (· = [Value.comma])) (v :: w) [.comma] (v :: w) _ (v :: x) rfl hx
    simpa using this

/-- What begins the thing begins what a multiplier makes of it. -/
theorem begins_multiplied {ms : List Mult} {L : Lang} {F : Value → Prop} (ht : Told ms L F) {v : Value} (h : Begins L v) :
    Begins (multiplied ms L) v := by
  obtain ⟨w, hw⟩ := h
  unfold Told at ht
  split at ht
  · exact ⟨w, hw⟩
  · exact ⟨w, .inr hw⟩
  · exact ⟨w, [v :: w], by simpa using hw, by simp⟩
  · exact ⟨w, [v :: w], by simp, by simpa using hw, by simp⟩
  · rename_i a b
    obtain ⟨h1, h2, _⟩ := ht
    obtain ⟨k, hk⟩ : ∃ k, k + 1 = max a 1 := ⟨max a 1 - 1, by omega⟩
    obtain ⟨h3, x, h4⟩ := flatten_replicate hw k
    refine ⟨x, List.replicate (k + 1) (v :: w), ?_, ?_, h3, h4.symm⟩
    · rw [List.length_replicate]; omega
    · rw [List.length_replicate]; omega
  · rename_i a b
    obtain ⟨h1, h2, _⟩ := ht
    obtain ⟨x, hx⟩ := joined_replicate v w (a - 1)
    refine ⟨x, List.replicate (a - 1 + 1) (v :: w), ?_, ?_, ?_, hx⟩
    · rw [List.length_replicate]; omega
    · rw [List.length_replicate]; omega
    · intro p hp; rw [List.eq_of_mem_replicate hp]; exact hw
  · exact ht.elim

theorem told_ends {ms : List Mult} {L : Lang} {F : Value → Prop} (ht : Told ms L F) : Ends ms := by
  unfold Told at ht
  split at ht
  · exact .inl trivial
  · exact .inl trivial
  · exact .inl trivial
  · exact .inl trivial
  · exact .inl trivial
  · exact .inr (.inr ⟨_, _, .inl rfl⟩)
  · exact ht.elim

/-- Only what a multiplier allows can be left out. -/
theorem told_empty {ms : List Mult} {L : Lang} {F : Value → Prop} (ht : Told ms L F) (hL : ¬ L []) (h : multiplied ms L []) :
    omissible ms = true := by
  have none_of : ∀ ps : List (List Value), (∀ p ∈ ps, L p) → [] = ps.flatten → ps = [] := by
    intro ps hps e
    have := pieces_length hL ps hps
    rw [← e] at this
    exact List.length_eq_zero_iff.1 (by simpa using this)
  unfold Told at ht
  split at ht
  · exact absurd h hL
  · rfl
  · rfl
  · obtain ⟨ps, h1, h2, h3⟩ := h
    exact absurd (none_of ps h2 h3) h1
  · rename_i a b
    obtain ⟨ps, h1, h2, h3, h4⟩ := h
    have := none_of ps h3 h4
    subst this
    simp only [List.length_nil, Nat.le_zero] at h1
    subst h1
    simp [omissible, fulfil, primary, ht.2.1]
  · obtain ⟨ps, h1, h2, h3, h4⟩ := h
    have := joined_length hL h4 h3
    simp only [List.length_nil, Nat.le_zero, List.length_eq_zero_iff] at this
    subst this
    simp only [List.length_nil, Nat.le_zero] at h1
    omega
  · exact ht.elim

theorem component_exact {K : Nat} {ms : List Mult} {m : Matcher} {L : Lang} {F : Value → Prop} (ht : Told ms L F) (hL : ¬ L [])
    (hm : Exact K m L (Inside ms L F)) {n : Nat} (hn : K + caps ms + 1 ≤ n) : Exact K (component ms m n) (multiplied ms L) F := by
  have hneg : ∀ input, ¬ HeadIn (Begins (multiplied ms L)) input → ¬ HeadIn (Begins L) input := by
    intro input h
    cases input with
    | nil => exact id
    | cons v input => exact fun hb => h (begins_multiplied ht hb)
  have hlet : multiplied ms L [] → omissible ms = true := told_empty ht hL
  have hlet' : omissible ms = true → multiplied ms L [] := fun h => omissible_lang (told_ends ht) h L
  -- what does not begin it
  have negs : csvBounds ms = Option.none → (fulfil ms 0 = .notYet ∨ fulfil ms 0 = .more) → (∀ input, deeps input ≤ K →
      ¬ HeadIn (Begins (multiplied ms L)) input → multiplied ms L [] → component ms m n input = .ok input) ∧
      (∀ input, deeps input ≤ K → ¬ HeadIn (Begins (multiplied ms L)) input → ¬ multiplied ms L [] →
        component ms m n input = .fail) := by
    intro hc hz
    constructor
    · intro input hd hh he
      unfold component
      rw [hc]
      simp only
      rw [inner_stop hm hL (by omega) input hd (hneg input hh) hz, hlet he]
      rfl
    · intro input hd hh he
      have ho : omissible ms = false := by
        cases ho : omissible ms with
        | false => rfl
        | true => exact absurd (hlet' ho) he
      unfold component
      rw [hc]
      simp only
      rw [inner_stop hm hL (by omega) input hd (hneg input hh) hz, ho]
      rfl
  have hk : ∀ (ps : List (List Value)) (r : List Value), (∀ p ∈ ps, L p) → deeps (ps.flatten ++ r) ≤ K → ps.length < n := by
    intro ps r h1 h2
    have := pieces_length hL ps h1
    have h3 := deeps_length (ps.flatten ++ r)
    rw [List.length_append] at h3
    omega
  unfold Told at ht
  split at ht
  · -- once
    have hz := negs rfl (.inl rfl)
    refine ⟨?_, hz.1, hz.2⟩
    intro w r hw hr hd
    replace hw : L w := hw
    show inner [.once] m n 0 (w ++ r) = .ok r
    have := inner_pos (ms := [.once]) hm hL [w] 0 n r (by simpa using hw) (by simpa using hd)
      (hk [w] r (by simpa using hw) (by simpa using hd)) hr (by simp) (by intro j h h'; simp at h'; omega)
      (.inl ⟨rfl, by simp⟩) (by simp)
    simpa using this
  · -- opt
    have hz := negs rfl (.inr rfl)
    refine ⟨?_, hz.1, hz.2⟩
    intro w r hw hr hd
    show inner [.opt] m n 0 (w ++ r) = .ok r
    rcases hw with rfl | hw
    · have := inner_pos (ms := [.opt]) hm hL [] 0 n r (by simp) (by simpa using hd) (by simp only [List.length_nil]; omega) hr (by simp) (by
          intro j h h'; simp at h') (.inr ⟨rfl, follows_apart ht hr⟩) (fun _ _ => rfl)
      simpa using this
    · have := inner_pos (ms := [.opt]) hm hL [w] 0 n r (by simpa using hw) (by simpa using hd)
        (hk [w] r (by simpa using hw) (by simpa using hd)) hr (by simp) (by intro j h h'; simp at h'; omega)
        (.inl ⟨rfl, by simp⟩) (by simp)
      simpa using this
  · -- star
    have hz := negs rfl (.inr rfl)
    refine ⟨?_, hz.1, hz.2⟩
    intro w r hw hr hd
    obtain ⟨ps, h1, rfl⟩ := hw
    exact inner_pos (ms := [.star]) hm hL ps 0 n r h1 hd (hk ps r h1 hd) (by cases r with
      | nil => trivial
      | cons v r => exact .inl hr) (fun _ v hv => .inr hv) (fun _ _ _ => .inr rfl) (.inr ⟨rfl, follows_apart ht hr⟩) (fun _ _ => rfl)
  · -- plus
    have hz := negs rfl (.inl rfl)
    refine ⟨?_, hz.1, hz.2⟩
    intro w r hw hr hd
    obtain ⟨ps, h0, h1, rfl⟩ := hw
    have hpos := List.length_pos_iff.2 h0
    have hf : ∀ j, 0 < j → fulfil [.plus] j = .more := by
      intro j hj
      have : j ≠ 0 := by omega
      simp [fulfil, primary, this]
    exact inner_pos (ms := [.plus]) hm hL ps 0 n r h1 hd (hk ps r h1 hd) (by cases r with
      | nil => trivial
      | cons v r => exact .inl hr) (fun _ v hv => .inr hv) (fun j h _ => .inr (hf j h))
      (.inr ⟨hf _ (by omega), follows_apart ht hr⟩) (fun h => absurd h h0)
  · -- between
    rename_i a b
    obtain ⟨hab, hb, hap⟩ := ht
    have hf : ∀ j, fulfil [.between a b] j =
        if j < a then .notYet else if j = b then .done else if a ≤ j ∧ j < b then .more else .never := fun j => rfl
    have hz := negs rfl (by
      rw [hf]
      by_cases h0 : 0 < a
      · simp [h0]
      · have h2 : 0 ≠ b := by omega
        have h3 : a = 0 := by omega
        simp [h3, h2, hb])
    refine ⟨?_, hz.1, hz.2⟩
    intro w r hw hr hd
    obtain ⟨ps, ha', hb', h1, rfl⟩ := hw
    refine inner_pos (ms := [.between a b]) hm hL ps 0 n r h1 hd (hk ps r h1 hd) (by cases r with
      | nil => trivial
      | cons v r => exact .inl hr) (fun _ v hv => .inr hv) ?_ ?_ ?_
    · intro j hj hj'
      rw [hf]
      by_cases h : j < a
      · simp [h]
      · have h2 : j ≠ b := by omega
        have h3 : a ≤ j ∧ j < b := by omega
        simp [h, h2, h3]
    · rw [Nat.zero_add, hf]
      have h2 : ¬ ps.length < a := by omega
      by_cases h : ps.length = b
      · left
        refine ⟨by simp [h, hab], ?_⟩
        rintro rfl
        simp at h
        omega
      · right
        have h3 : a ≤ ps.length ∧ ps.length < b := by omega
        exact ⟨by simp [h2, h, h3], follows_apart (hap (by omega)) hr⟩
    · rintro rfl _
      have h3 : a = 0 := by simpa using ha'
      subst h3
      simp [omissible, hf, hb]
  · -- commas
    rename_i a b
    obtain ⟨ha, hab, hF⟩ := ht
    have h1n : 1 < n ∨ n = 1 := by omega
    have hcap : caps [.csv a b] = 1 := rfl
    rw [hcap] at hn
    have hpiece : Exact K (inner [.csv a b] m n 0) L (fun v => F v ∨ v = .comma) :=
      piece_exact (ms := [.csv a b]) rfl hm hL (by omega)
    have hnot : ¬ multiplied [.csv a b] L [] := by
      intro h
      have := hlet h
      simp [omissible, fulfil, primary] at this
    refine ⟨?_, fun _ _ _ h => absurd h hnot, ?_⟩
    · intro w r hw hr hd
      obtain ⟨ps, h1, h2, h3, h4⟩ := hw
      have hlen := joined_length hL h4 h3
      have hdl := deeps_length (w ++ r)
      rw [List.length_append] at hdl
      have hne : ps ≠ [] := by
        rintro rfl
        simp at h1
        omega
      exact csvLoop_pos (a := a) (b := b) hpiece hL hF ps w 0 n r h4 hne h3 hr hd (by omega) (by omega) (by omega)
    · intro input hd hh _
      have hst := hpiece.stop input hd (hneg input hh) hL
      obtain ⟨n, rfl⟩ : ∃ k, n = k + 1 := ⟨n - 1, by omega⟩
      show csvLoop a b (inner [.csv a b] m (n + 1) 0) (n + 1) 0 input = .fail
      unfold csvLoop
      rw [hst]
      have : ¬ (a ≤ 0 ∧ 0 ≤ b) := by omega
      simp only [counted, this, if_false]
  · exact ht.elim

end Verif.Grammar
