import Verif.Grammar.Complete

/-!
# Groups in which the next value decides
-/

namespace Verif.Grammar
open Verif

/-! ## Juxtaposition -/

/-- each exact before those that come after it -/
def SeqExact (env : Env) (K n : Nat) : List Component → (Value → Prop) → Prop
  | [], _ => True
  | c :: cs, F => Exact K (c.run env n) (c.lang (Stands env)) (Next (langs (Stands env) cs) F) ∧ SeqExact env K n cs F

theorem jux_pos (env : Env) (K n : Nat) (F : Value → Prop) : ∀ (cs : List Component) (prev : Bool) (w r : List Value),
    SeqExact env K n cs F → Concat (langs (Stands env) cs) w → Follows F r → deeps (w ++ r) ≤ K →
    juxtapose (parts env n cs) prev (w ++ r) = .ok r := by
  intro cs
  induction cs with
  | nil =>
    intro prev w r _ hw _ _
    have : w = [] := hw
    subst this
    rfl
  | cons c cs ih =>
    intro prev w r hs hw hr hd
    obtain ⟨a, b, ha, hb, rfl⟩ := hw
    have hb' : Concat (langs (Stands env) cs) b := hb
    rw [List.append_assoc] at hd ⊢
    have hfo : Follows (Next (langs (Stands env) cs) F) (b ++ r) := by
      cases b with
      | nil =>
        cases r with
        | nil => trivial
        | cons v r => exact .inr ⟨hb', hr⟩
      | cons v b => exact .inl ⟨b, hb'⟩
    have hrun := hs.1.pos a (b ++ r) ha hfo hd
    rw [deeps_append] at hd
    simp only [parts, juxtapose, hrun]
    exact ih _ b r hs.2 hb' hr (by omega)

theorem concat_inhabited : ∀ Ls : List Lang, (∀ L ∈ Ls, ∃ w, L w) → ∃ w, Concat Ls w
  | [], _ => ⟨[], rfl⟩
  | L :: Ls, h => by
    obtain ⟨a, ha⟩ := h L (by simp)
    obtain ⟨b, hb⟩ := concat_inhabited Ls fun M hM => h M (List.mem_cons_of_mem _ hM)
    exact ⟨a ++ b, a, b, ha, hb, rfl⟩

theorem jux_neg (env : Env) (K n : Nat) (F : Value → Prop) : ∀ (cs : List Component) (prev : Bool) (input : List Value),
    SeqExact env K n cs F → (∀ L ∈ langs (Stands env) cs, ∃ w, L w) → (∀ c ∈ cs, omissible c.ms = true → c.lang (Stands env) []) →
    Beside (Stands env) cs → (prev = true ∨ HeadFree cs) → deeps input ≤ K →
    ¬ HeadIn (Begins (Concat (langs (Stands env) cs))) input →
    (Concat (langs (Stands env) cs) [] → juxtapose (parts env n cs) prev input = .ok input) ∧
    (¬ Concat (langs (Stands env) cs) [] → juxtapose (parts env n cs) prev input = .fail) := by
  intro cs
  induction cs with
  | nil =>
    intro prev input _ _ _ _ _ _ _
    exact ⟨fun _ => rfl, fun h => absurd rfl h⟩
  | cons c cs ih =>
    intro prev input hs hin hom hb hp hd hh
    rw [langs_cons] at hh hin ⊢
    have hin' : ∀ L ∈ langs (Stands env) cs, ∃ w, L w := fun L hL => hin L (List.mem_cons_of_mem _ hL)
    have hom' : ∀ d ∈ cs, omissible d.ms = true → d.lang (Stands env) [] := fun d hd => hom d (List.mem_cons_of_mem _ hd)
    have hhead : ¬ HeadIn (Begins (c.lang (Stands env))) input := by
      cases input with
      | nil => exact id
      | cons v input =>
        rintro ⟨w, hw⟩
        obtain ⟨b, hb⟩ := concat_inhabited _ hin'
        exact hh ⟨w ++ b, v :: w, b, hw, hb, rfl⟩
    by_cases hc : c.lang (Stands env) []
    · have hrun := hs.1.skip input hd hhead hc
      have hfree : HeadFree cs := by
        cases cs with
        | nil => trivial
        | cons d ds =>
          cases hdc : d.isComma with
          | false => exact hdc
          | true => exact absurd hc (hb.1 hdc)
      have hh' : ¬ HeadIn (Begins (Concat (langs (Stands env) cs))) input := by
        cases input with
        | nil => exact id
        | cons v input =>
          rintro ⟨w, hw⟩
          exact hh ⟨w, [], v :: w, hc, hw, rfl⟩
      have := ih (decide (input.length < input.length)) input hs.2 hin' hom' hb.tail (.inr hfree) hd hh'
      rw [concat_nil_cons]
      simp only [parts, juxtapose, hrun]
      exact ⟨fun h => this.1 h.2, fun h => this.2 fun h' => h ⟨hc, h'⟩⟩
    · have hrun := hs.1.stop input hd hhead hc
      refine ⟨fun h => absurd (concat_nil_cons.1 h).1 hc, fun _ => ?_⟩
      by_cases hcc : c.isComma = true
      · have hp' : prev = true := by
          rcases hp with h | h
          · exact h
          · simp [HeadFree, hcc] at h
        exact comma_fails hom' hb hcc hp' hrun
      · simp [parts, juxtapose, hrun, hcc]

/-! ## One of them -/

theorem oneOf_pos {r : List Value} : ∀ (ps : List Part) (best : Option (List Value)) (input : List Value), input ≠ [] →
    (∀ p ∈ ps, p.run input = .fail ∨ p.run input = .ok r) → (best = some r ∨ best = Option.none ∧ ∃ p ∈ ps, p.run input = .ok r) →
    oneOf ps best input = .ok r := by
  intro ps
  induction ps with
  | nil =>
    intro best input _ _ hb
    rcases hb with rfl | ⟨_, p, hp, _⟩
    · rfl
    · simp at hp
  | cons p ps ih =>
    intro best input hne hps hb
    have hps' : ∀ q ∈ ps, q.run input = .fail ∨ q.run input = .ok r := fun q hq => hps q (List.mem_cons_of_mem _ hq)
    have hie : input.isEmpty = false := by
      cases h : input.isEmpty with
      | false => rfl
      | true => exact absurd (List.isEmpty_iff.1 h) hne
    unfold oneOf
    simp only [hie, Bool.false_eq_true, if_false]
    rcases hps p (by simp) with hr | hr
    · simp only [hr]
      apply ih _ _ hne hps'
      rcases hb with hb | ⟨hb, q, hq, hqr⟩
      · exact .inl hb
      · rcases List.mem_cons.1 hq with rfl | hq
        · rw [hr] at hqr; cases hqr
        · exact .inr ⟨hb, q, hq, hqr⟩
    · simp only [hr]
      apply ih _ _ hne hps'
      left
      rcases hb with rfl | ⟨rfl, _⟩
      · simp
      · rfl

theorem oneOf_neg : ∀ (ps : List Part) (input : List Value), (∀ p ∈ ps, p.run input = .fail) → oneOf ps Option.none input = .fail := by
  intro ps
  induction ps with
  | nil => intro input _; rfl
  | cons p ps ih =>
    intro input hps
    unfold oneOf
    split
    · rfl
    · rw [hps p (by simp)]
      exact ih _ fun q hq => hps q (List.mem_cons_of_mem _ hq)

theorem oneOf_exact {K : Nat} {F : Value → Prop} {comma : Lang} (xs : List Paired) (hx : ∀ x ∈ xs, Exact K x.1.run x.2.2 F)
    (hn : ∀ x ∈ xs, ¬ x.2.2 []) (hc : Choices (xs.map (·.2.2))) :
    Exact K (oneOf (xs.map (·.1)) Option.none) (Comb.lang comma .exactlyOne (xs.map (·.2))) F := by
  have hL : ¬ Comb.lang comma .exactlyOne (xs.map (·.2)) [] := by
    rintro ⟨i, hi, h⟩
    obtain ⟨x, hxs, rfl⟩ := List.mem_map.1 hi
    exact hn x hxs h
  have two : ∀ (xs : List Paired), Choices (xs.map (·.2.2)) → ∀ x ∈ xs, ∀ y ∈ xs, x = y ∨
      Apart (Begins x.2.2) (Begins y.2.2) ∨ (Single x.2.2 ∧ Single y.2.2) := by
    intro xs
    induction xs with
    | nil => intro _ x hx; simp at hx
    | cons z xs ih =>
      intro hc x hx y hy
      have h1 := hc.1
      rcases List.mem_cons.1 hx with rfl | hx'
      · rcases List.mem_cons.1 hy with rfl | hy'
        · exact .inl rfl
        · exact .inr (h1 _ (List.mem_map_of_mem hy'))
      · rcases List.mem_cons.1 hy with rfl | hy'
        · right
          rcases h1 _ (List.mem_map_of_mem hx') with h | h
          · exact .inl fun v hv hv' => h v hv' hv
          · exact .inr ⟨h.2, h.1⟩
        · exact ih hc.2 x hx' y hy'
  refine ⟨?_, fun _ _ _ h => absurd h hL, ?_⟩
  · rintro w r ⟨i, hi, hw⟩ hr hd
    obtain ⟨x, hxs, rfl⟩ := List.mem_map.1 hi
    have hwne : w ≠ [] := by rintro rfl; exact hn x hxs hw
    apply oneOf_pos
    · simp [hwne]
    · intro p hp
      obtain ⟨y, hy, rfl⟩ := List.mem_map.1 hp
      rcases two xs hc x hxs y hy with rfl | h | ⟨h1, h2⟩
      · exact .inr ((hx x hxs).pos w r hw hr hd)
      · left
        apply (hx y hy).stop _ hd _ (hn y hy)
        cases w with
        | nil => exact absurd rfl hwne
        | cons v w => exact fun hv => h v ⟨w, hw⟩ hv
      · obtain ⟨v, rfl⟩ := h1 w hw
        by_cases hv : Begins y.2.2 v
        · obtain ⟨w', hw'⟩ := hv
          obtain ⟨v', e⟩ := h2 _ hw'
          simp only [List.cons.injEq] at e
          obtain ⟨rfl, rfl⟩ := e
          exact .inr ((hx y hy).pos _ r hw' hr hd)
        · exact .inl ((hx y hy).stop _ hd (fun h => hv h) (hn y hy))
    · exact .inr ⟨rfl, x.1, List.mem_map_of_mem hxs, (hx x hxs).pos w r hw hr hd⟩
  · intro input hd hh _
    apply oneOf_neg
    intro p hp
    obtain ⟨y, hy, rfl⟩ := List.mem_map.1 hp
    apply (hx y hy).stop _ hd _ (hn y hy)
    cases input with
    | nil => exact id
    | cons v input =>
      rintro ⟨w, hw⟩
      exact hh ⟨w, y.2, List.mem_map_of_mem hy, hw⟩

/-! ## Any order -/

/-- one after another, none of them empty -/
def ConcatNE : List Lang → Lang
  | [], w => w = []
  | L :: Ls, w => ∃ a b, a ≠ [] ∧ L a ∧ ConcatNE Ls b ∧ w = a ++ b

/-- a component with its language and what may follow it -/
structure Item where
  part : Part
  lang : Lang
  after : Value → Prop

/-- Two components can be told apart, and each may follow the other. -/
def Item.Beside (x y : Item) : Prop :=
  Apart (Begins x.lang) (Begins y.lang) ∧ (∀ v, Begins y.lang v → x.after v) ∧ (∀ v, Begins x.lang v → y.after v)

theorem Item.Beside.symm {x y : Item} (h : x.Beside y) : y.Beside x :=
  ⟨fun v h1 h2 => h.1 v h2 h1, h.2.2, h.2.1⟩

theorem scan_skip {need : Bool} {input : List Value} : ∀ (ps before : List Part), (∀ p ∈ ps, p.run input = .fail ∨
    (p.run input = .ok input ∧ need = true ∧ omissible p.ms = true)) → ∀ qs, scan need input before (ps ++ qs) =
      scan need input (before ++ ps) qs := by
  intro ps
  induction ps with
  | nil => intro before _ qs; simp
  | cons p ps ih =>
    intro before h qs
    have ih' := ih (before ++ [p]) (fun q hq => h q (List.mem_cons_of_mem _ hq)) qs
    simp only [List.append_assoc, List.singleton_append] at ih'
    rw [List.cons_append, scan]
    rcases h p (by simp) with hr | ⟨hr, hn, ho⟩
    · rw [hr]; exact ih'
    · rw [hr]
      simp only [hn, ho, Bool.not_true, Nat.lt_irrefl, decide_false, Bool.or_self, Bool.false_eq_true, if_false]
      rw [hn] at ih'
      exact ih'

theorem pass_pos {K : Nat} {need : Bool} {F : Value → Prop} : ∀ (qs zs xs : List Item) (k : Nat) (w r : List Value),
    (qs ++ zs).Perm xs → xs.Pairwise Item.Beside → (∀ x ∈ xs, Exact K x.part.run x.lang x.after) → (∀ x ∈ xs, ∀ v, F v → x.after v) →
    (∀ x ∈ xs, x.lang [] → need = true ∧ omissible x.part.ms = true) →
    (∀ z ∈ zs, Apart (Begins z.lang) F) → ConcatNE (qs.map (·.lang)) w → Follows F r → deeps (w ++ r) ≤ K → qs.length ≤ k →
    ∃ left : List Part, pass need k (xs.map (·.part)) (w ++ r) = .ok (r, left) ∧ left.Perm (zs.map (·.part)) := by
  intro qs
  induction qs with
  | nil =>
    intro zs xs k w r hp _ hx _ hom hz hw hr hd _
    have hw' : w = [] := hw
    subst hw'
    simp only [List.nil_append] at hp hd ⊢
    have hperm : (xs.map (·.part)).Perm (zs.map (·.part)) := (hp.map _).symm
    cases k with
    | zero => exact ⟨_, rfl, hperm⟩
    | succ k =>
      unfold pass
      split
      · exact ⟨_, rfl, hperm⟩
      · have hskip := scan_skip (need := need) (input := r) (xs.map (·.part)) [] (by
          intro p hpm
          obtain ⟨x, hxm, rfl⟩ := List.mem_map.1 hpm
          have hnb := follows_apart (hz x (hp.mem_iff.2 hxm)) hr
          by_cases he : x.lang []
          · exact .inr ⟨(hx x hxm).skip r hd hnb he, hom x hxm he⟩
          · exact .inl ((hx x hxm).stop r hd hnb he)) []
        rw [List.append_nil] at hskip
        rw [hskip]
        exact ⟨_, rfl, hperm⟩
  | cons q qs ih =>
    intro zs xs k w r hp hpw hx hF hom hz hw hr hd hk
    obtain ⟨a, b, hane, ha, hb, rfl⟩ := hw
    obtain ⟨k, rfl⟩ : ∃ j, k = j + 1 := ⟨k - 1, by simp at hk; omega⟩
    rw [List.append_assoc] at hd ⊢
    have hqx : q ∈ xs := hp.mem_iff.1 (by simp)
    obtain ⟨xa, xb, rfl⟩ := List.append_of_mem hqx
    have hp' : (qs ++ zs).Perm (xa ++ xb) := by
      have := hp.trans List.perm_middle
      rw [List.cons_append] at this
      exact this.cons_inv
    have hpw1 : ∀ y ∈ xa ++ xb, q.Beside y := by
      have h1 := (List.Perm.pairwise_iff (fun {x y} h => Item.Beside.symm h) (List.perm_middle (a := q) (l₁ := xa) (l₂ := xb))).1 hpw
      exact (List.pairwise_cons.1 h1).1
    have hpw2 : (xa ++ xb).Pairwise Item.Beside := by
      have h1 := (List.Perm.pairwise_iff (fun {x y} h => Item.Beside.symm h) (List.perm_middle (a := q) (l₁ := xa) (l₂ := xb))).1 hpw
      exact (List.pairwise_cons.1 h1).2
    have hsub : ∀ y ∈ xa ++ xb, y ∈ xa ++ q :: xb := by
      intro y hy
      simp only [List.mem_append, List.mem_cons] at hy ⊢
      tauto
    have hfo : Follows q.after (b ++ r) := by
      cases qs with
      | nil =>
        have hb' : b = [] := hb
        subst hb'
        cases r with
        | nil => trivial
        | cons v r => exact hF q hqx v hr
      | cons q' qs =>
        obtain ⟨a', b', ha'ne, ha', _, rfl⟩ := hb
        cases a' with
        | nil => exact absurd rfl ha'ne
        | cons v a' => exact (hpw1 q' (hp'.mem_iff.1 (by simp))).2.1 v ⟨a', ha'⟩
    have hrun := (hx q hqx).pos a (b ++ r) ha hfo hd
    have hne : (a ++ (b ++ r)).isEmpty = false := by simp [hane]
    have hclaim : scan need (a ++ (b ++ r)) [] ((xa ++ q :: xb).map (·.part)) = .claimed (b ++ r) ((xa ++ xb).map (·.part)) := by
      rw [List.map_append, List.map_cons]
      rw [scan_skip (xa.map (·.part)) [] (by
        intro p hpm
        obtain ⟨x, hxm, rfl⟩ := List.mem_map.1 hpm
        have hxm' : x ∈ xa ++ q :: xb := List.mem_append_left _ hxm
        have hnb : ¬ HeadIn (Begins x.lang) (a ++ (b ++ r)) := by
          cases a with
          | nil => exact absurd rfl hane
          | cons v a => exact (hpw1 x (List.mem_append_left _ hxm)).1 v ⟨a, ha⟩
        by_cases he : x.lang []
        · exact .inr ⟨(hx x hxm').skip _ hd hnb he, hom x hxm' he⟩
        · exact .inl ((hx x hxm').stop _ hd hnb he))]
      rw [scan, hrun]
      have hlt : (b ++ r).length < (a ++ (b ++ r)).length := by
        have := List.length_pos_iff.2 hane
        rw [List.length_append (as := a)]
        omega
      simp only [hlt, decide_true, Bool.or_true, Bool.true_or, if_true, List.nil_append, List.map_append]
    have hd' : deeps (b ++ r) ≤ K := by rw [deeps_append] at hd; omega
    obtain ⟨left, h1, h2⟩ := ih zs (xa ++ xb) k b r hp' hpw2 (fun x h => hx x (hsub x h)) (fun x h => hF x (hsub x h))
      (fun x h => hom x (hsub x h)) hz hb hr hd' (by simp only [List.length_cons] at hk; omega)
    refine ⟨left, ?_, h2⟩
    unfold pass
    simp only [hne, Bool.false_eq_true, if_false, hclaim]
    exact h1

/-- Nobody can claim what none of them begins. -/
theorem pass_neg {K : Nat} {need : Bool} (xs : List Item) (k : Nat) (input : List Value)
    (hx : ∀ x ∈ xs, Exact K x.part.run x.lang x.after) (hom : ∀ x ∈ xs, x.lang [] → need = true ∧ omissible x.part.ms = true)
    (hd : deeps input ≤ K) (hh : ∀ x ∈ xs, ¬ HeadIn (Begins x.lang) input) :
    pass need k (xs.map (·.part)) input = .ok (input, xs.map (·.part)) := by
  cases k with
  | zero => rfl
  | succ k =>
    unfold pass
    split
    · rfl
    · have hskip := scan_skip (need := need) (input := input) (xs.map (·.part)) [] (by
        intro p hpm
        obtain ⟨x, hxm, rfl⟩ := List.mem_map.1 hpm
        by_cases he : x.lang []
        · exact .inr ⟨(hx x hxm).skip input hd (hh x hxm) he, hom x hxm he⟩
        · exact .inl ((hx x hxm).stop input hd (hh x hxm) he)) []
      rw [List.append_nil] at hskip
      rw [hskip]
      rfl

theorem bestAttempt_all {f : Nat → Res} {r : List Value} : ∀ (os : List Nat) (best : Option (List Value)), (∀ o, f o = .ok r) →
    (best = some r ∨ os ≠ []) → (best = some r ∨ best = Option.none) → bestAttempt f os best = .ok r := by
  intro os
  induction os with
  | nil =>
    intro best _ h _
    rcases h with rfl | h
    · rfl
    · exact absurd rfl h
  | cons o os ih =>
    intro best hf _ hb
    unfold bestAttempt
    rw [hf o]
    simp only
    split
    · rfl
    · apply ih _ hf
      · left
        rcases hb with rfl | rfl
        · simp
        · rfl
      · left
        rcases hb with rfl | rfl
        · simp
        · rfl

theorem bestAttempt_none {f : Nat → Res} : ∀ (os : List Nat), (∀ o, f o = .fail) → bestAttempt f os Option.none = .fail := by
  intro os
  induction os with
  | nil => intro _; rfl
  | cons o os ih =>
    intro hf
    unfold bestAttempt
    rw [hf o]
    exact ih hf

theorem offsets_ne (ps : List Part) : offsets ps ≠ [] := by
  unfold offsets
  intro h
  have := congrArg List.length h
  simp at this

/-- Those whose text is empty can be set aside. -/
theorem concat_split : ∀ (xs : List Item) (w : List Value), Concat (xs.map (·.lang)) w →
    ∃ qs zs : List Item, (qs ++ zs).Perm xs ∧ ConcatNE (qs.map (·.lang)) w ∧ ∀ z ∈ zs, z.lang []
  | [], w, h => ⟨[], [], .refl _, h, by simp⟩
  | x :: xs, w, ⟨a, b, ha, hb, e⟩ => by
    subst e
    obtain ⟨qs, zs, hp, hq, hz⟩ := concat_split xs b hb
    by_cases hane : a = []
    · subst hane
      refine ⟨qs, x :: zs, List.perm_middle.trans (hp.cons x), by simpa using hq, ?_⟩
      intro z hzm
      rcases List.mem_cons.1 hzm with rfl | hzm
      · exact ha
      · exact hz z hzm
    · exact ⟨x :: qs, zs, hp.cons x, ⟨a, b, hane, ha, hq, rfl⟩, hz⟩

theorem rotated_map (xs : List Item) (o : Nat) : ∃ ys : List Item, ys.Perm xs ∧ ys.map (·.part) = rotated (xs.map (·.part)) o := by
  refine ⟨xs.drop o ++ xs.take o, ?_, ?_⟩
  · exact List.perm_append_comm.trans (by rw [List.take_append_drop])
  · rw [List.map_append, List.map_drop, List.map_take]
    rfl

/-- the languages of items, marked -/
def marked (xs : List (Bool × Item)) : List (Bool × Lang) := xs.map fun x => (x.1, x.2.lang)

theorem marked_concat {xs qs : List (Bool × Lang)} {is : List Item} (h : xs.map (·.2) = is.map (·.lang)) (hp : qs.Perm xs) :
    ∃ js : List Item, js.Perm is ∧ js.map (·.lang) = qs.map (·.2) := by
  have h1 : (qs.map (·.2)).Perm (is.map (·.lang)) := by rw [← h]; exact hp.map _
  have key : ∀ (Ls Ms : List Lang), Ls.Perm Ms → ∀ is : List Item, is.map (·.lang) = Ms → ∃ js : List Item, js.Perm is ∧
      js.map (·.lang) = Ls := by
    intro Ls Ms hp
    induction hp with
    | nil => intro is h; exact ⟨is, .refl _, h⟩
    | cons x _ ih =>
      intro is h
      obtain ⟨i, is', rfl, rfl, h'⟩ := List.map_eq_cons_iff.1 h
      obtain ⟨js, hj, e⟩ := ih is' h'
      exact ⟨i :: js, hj.cons i, by simp [e]⟩
    | swap x y l =>
      intro is h
      obtain ⟨i, is', rfl, rfl, h'⟩ := List.map_eq_cons_iff.1 h
      obtain ⟨j, is'', rfl, rfl, rfl⟩ := List.map_eq_cons_iff.1 h'
      exact ⟨j :: i :: is'', .swap _ _ _, rfl⟩
    | trans _ _ ih1 ih2 =>
      intro is h
      obtain ⟨js, hj, e⟩ := ih2 is h
      obtain ⟨ks, hk, e'⟩ := ih1 js e
      exact ⟨ks, hk.trans hj, e'⟩
  obtain ⟨js, hj, e⟩ := key _ _ h1 is rfl
  exact ⟨js, hj, e⟩

theorem allAny_exact {K : Nat} {F : Value → Prop} {comma : Lang} (is : List Item) (xs : List (Bool × Lang))
    (he : xs.map (·.2) = is.map (·.lang)) (hpw : is.Pairwise Item.Beside) (hx : ∀ x ∈ is, Exact K x.part.run x.lang x.after)
    (hF : ∀ x ∈ is, ∀ v, F v → x.after v) (hom : ∀ x ∈ is, x.lang [] → omissible x.part.ms = true)
    (hom' : ∀ x ∈ is, omissible x.part.ms = true → x.lang []) (hin : ∀ x ∈ is, ∃ w, x.lang w)
    (hz : ∀ z ∈ is, z.lang [] → Apart (Begins z.lang) F) (hL : ¬ Comb.lang comma .allAnyOrder xs []) :
    Exact K (Comb.run .allAnyOrder (is.map (·.part))) (Comb.lang comma .allAnyOrder xs) F := by
  have hnot : ∃ x ∈ is, ¬ x.lang [] := by
    by_cases h : ∃ x ∈ is, ¬ x.lang []
    · exact h
    · exfalso
      apply hL
      refine ⟨xs, .refl _, ?_⟩
      rw [he]
      apply concat_empties
      intro L hLm
      obtain ⟨x, hxm, rfl⟩ := List.mem_map.1 hLm
      by_contra hc
      exact h ⟨x, hxm, hc⟩
  refine ⟨?_, fun _ _ _ h => absurd h hL, ?_⟩
  · rintro w r ⟨qs, hq, hw⟩ hr hd
    obtain ⟨js, hj, ej⟩ := marked_concat he hq
    rw [← ej] at hw
    obtain ⟨qs', zs, hp, hq', hz'⟩ := concat_split js w hw
    simp only [Comb.run]
    apply bestAttempt_all _ _ _ (.inr (offsets_ne _)) (.inr rfl)
    intro o
    obtain ⟨ys, hy, ey⟩ := rotated_map is o
    have hmem : ∀ y, y ∈ ys ↔ y ∈ is := fun y => hy.mem_iff
    have hperm : (qs' ++ zs).Perm ys := (hp.trans hj).trans hy.symm
    obtain ⟨left, h1, h2⟩ := pass_pos (K := K) (need := true) (F := F) qs' zs ys ys.length w r hperm
      ((List.Perm.pairwise_iff (fun {x y} h => Item.Beside.symm h) hy).2 hpw)
      (fun x h => hx x ((hmem x).1 h)) (fun x h => hF x ((hmem x).1 h)) (fun x h h' => ⟨rfl, hom x ((hmem x).1 h) h'⟩)
      (fun z h => hz z ((hmem z).1 (hperm.mem_iff.1 (List.mem_append_right _ h))) (hz' z h)) hq' hr hd
      (by rw [← hperm.length_eq, List.length_append]; omega)
    unfold allAnyPass
    rw [← ey, List.length_map, h1]
    have hall : (left.all fun p => omissible p.ms) = true := by
      rw [List.all_eq_true]
      intro p hp'
      obtain ⟨z, hzm, rfl⟩ := List.mem_map.1 (h2.mem_iff.1 hp')
      exact hom z ((hmem z).1 (hperm.mem_iff.1 (List.mem_append_right _ hzm))) (hz' z hzm)
    simp [hall]
  · intro input hd hh _
    have hhead : ∀ x ∈ is, ¬ HeadIn (Begins x.lang) input := by
      intro x hxm
      cases input with
      | nil => exact id
      | cons v input =>
        rintro ⟨w, hw⟩
        apply hh
        obtain ⟨a, b, rfl⟩ := List.append_of_mem hxm
        obtain ⟨w', hw'⟩ := concat_inhabited ((a ++ b).map (·.lang)) (by
          intro L hLm
          obtain ⟨y, hy, rfl⟩ := List.mem_map.1 hLm
          apply hin y
          simp only [List.mem_append, List.mem_cons] at hy ⊢
          tauto)
        rw [List.map_append, List.map_cons] at he
        obtain ⟨xa, xb', rfl, ea, eb'⟩ := List.map_eq_append_iff.1 he
        obtain ⟨x', xb, rfl, ex, eb⟩ := List.map_eq_cons_iff.1 eb'
        refine ⟨w ++ w', x' :: (xa ++ xb), List.perm_middle.symm, v :: w, w', by rw [← ex] at hw; exact hw, ?_, rfl⟩
        rw [List.map_append] at hw' ⊢
        rw [ea, eb]
        exact hw'
    simp only [Comb.run]
    apply bestAttempt_none
    intro o
    obtain ⟨ys, hy, ey⟩ := rotated_map is o
    have hmem : ∀ y, y ∈ ys ↔ y ∈ is := fun y => hy.mem_iff
    have h1 := pass_neg (K := K) (need := true) ys ys.length input (fun x h => hx x ((hmem x).1 h))
      (fun x h h' => ⟨rfl, hom x ((hmem x).1 h) h'⟩) hd (fun x h => hhead x ((hmem x).1 h))
    unfold allAnyPass
    rw [← ey, List.length_map, h1]
    obtain ⟨x, hxm, hxn⟩ := hnot
    have hall : ((ys.map (·.part)).all fun p => omissible p.ms) = false := by
      rw [List.all_eq_false]
      refine ⟨x.part, List.mem_map_of_mem ((hmem x).2 hxm), ?_⟩
      intro ho
      exact hxn (hom' x hxm ho)
    simp only [hall, Bool.false_eq_true, if_false]

theorem concat_ne : ∀ (xs : List Item) (w : List Value), (∀ x ∈ xs, ¬ x.lang []) → Concat (xs.map (·.lang)) w →
    ConcatNE (xs.map (·.lang)) w
  | [], w, _, h => h
  | x :: xs, w, hn, ⟨a, b, ha, hb, e⟩ => by
    have hane : a ≠ [] := by
      rintro rfl
      exact hn x (by simp) ha
    exact ⟨a, b, hane, ha, concat_ne xs b (fun y hy => hn y (List.mem_cons_of_mem _ hy)) hb, e⟩

theorem oneAny_exact {K : Nat} {F : Value → Prop} {comma : Lang} (is : List Item) (xs : List (Bool × Lang))
    (he : xs.map (·.2) = is.map (·.lang)) (hpw : is.Pairwise Item.Beside) (hx : ∀ x ∈ is, Exact K x.part.run x.lang x.after)
    (hF : ∀ x ∈ is, ∀ v, F v → x.after v) (hn : ∀ x ∈ is, ¬ x.lang []) (hz : ∀ z ∈ is, Apart (Begins z.lang) F) :
    Exact K (Comb.run .atLeastOneAnyOrder (is.map (·.part))) (Comb.lang comma .atLeastOneAnyOrder xs) F := by
  have hL : ¬ Comb.lang comma .atLeastOneAnyOrder xs [] := by
    rintro ⟨qs, os, hq, hp, hc⟩
    cases qs with
    | nil => exact absurd rfl hq
    | cons q qs =>
      rw [List.map_cons, concat_nil_cons] at hc
      have : q ∈ xs := hp.mem_iff.1 (by simp)
      have h2 : q.2 ∈ is.map (·.lang) := by rw [← he]; exact List.mem_map_of_mem this
      obtain ⟨x, hxm, ex⟩ := List.mem_map.1 h2
      exact hn x hxm (by rw [ex]; exact hc.1)
  refine ⟨?_, fun _ _ _ h => absurd h hL, ?_⟩
  · rintro w r ⟨qs, os, hq, hp, hw⟩ hr hd
    obtain ⟨js, hj, ej⟩ := marked_concat he hp
    rw [List.map_append] at ej
    obtain ⟨ja, jb, rfl, ea, eb⟩ := List.map_eq_append_iff.1 ej
    rw [← ea] at hw
    have hjn : ∀ x ∈ ja, ¬ x.lang [] := fun x h => hn x (hj.mem_iff.1 (List.mem_append_left _ h))
    have hw' := concat_ne ja w hjn hw
    simp only [Comb.run]
    apply bestAttempt_all _ _ _ (.inr (offsets_ne _)) (.inr rfl)
    intro o
    obtain ⟨ys, hy, ey⟩ := rotated_map is o
    have hmem : ∀ y, y ∈ ys ↔ y ∈ is := fun y => hy.mem_iff
    have hperm : (ja ++ jb).Perm ys := hj.trans hy.symm
    obtain ⟨left, h1, h2⟩ := pass_pos (K := K) (need := false) (F := F) ja jb ys ys.length w r hperm
      ((List.Perm.pairwise_iff (fun {x y} h => Item.Beside.symm h) hy).2 hpw)
      (fun x h => hx x ((hmem x).1 h)) (fun x h => hF x ((hmem x).1 h)) (fun x h h' => absurd h' (hn x ((hmem x).1 h)))
      (fun z h => hz z ((hmem z).1 (hperm.mem_iff.1 (List.mem_append_right _ h)))) hw' hr hd
      (by rw [← hperm.length_eq, List.length_append]; omega)
    unfold oneAnyPass
    rw [← ey, List.length_map, h1]
    have hja : 0 < ja.length := by
      rw [List.length_pos_iff]
      rintro rfl
      simp only [List.map_nil] at ea
      exact hq (List.map_eq_nil_iff.1 ea.symm)
    have hl : left.length ≠ ys.length := by
      rw [h2.length_eq, List.length_map, ← hperm.length_eq, List.length_append]
      omega
    simp [hl]
  · intro input hd hh _
    have hhead : ∀ x ∈ is, ¬ HeadIn (Begins x.lang) input := by
      intro x hxm
      cases input with
      | nil => exact id
      | cons v input =>
        rintro ⟨w, hw⟩
        apply hh
        have h2 : x.lang ∈ xs.map (·.2) := by rw [he]; exact List.mem_map_of_mem hxm
        obtain ⟨y, hym, ey⟩ := List.mem_map.1 h2
        obtain ⟨a, b, rfl⟩ := List.append_of_mem hym
        exact ⟨w, [y], a ++ b, by simp, by simpa using List.perm_middle.symm, v :: w, [], by rw [← ey] at hw; exact hw, rfl, by simp⟩
    simp only [Comb.run]
    apply bestAttempt_none
    intro o
    obtain ⟨ys, hy, ey⟩ := rotated_map is o
    have hmem : ∀ y, y ∈ ys ↔ y ∈ is := fun y => hy.mem_iff
    have h1 := pass_neg (K := K) (need := false) ys ys.length input (fun x h => hx x ((hmem x).1 h))
      (fun x h h' => absurd h' (hn x ((hmem x).1 h))) hd (fun x h => hhead x ((hmem x).1 h))
    unfold oneAnyPass
    rw [← ey, List.length_map, h1]
    simp

/-! ## Grammars -/

theorem stands_takes {env : Env} {l : Leaf} {v : Value} (h : Stands env l v) : l.takes env v = some true := by
  obtain ⟨n, h⟩ := h
  have h' : inner [.once] (single env l) n 0 [v] = .ok [] := h
  cases n with
  | zero => simp [inner] at h'
  | succ n =>
    unfold inner at h'
    cases ht : l.takes env v with
    | none => simp [single_cons, ht] at h'
    | some b =>
      cases b with
      | true => rfl
      | false => simp [single_cons, ht, fulfil, primary] at h'

theorem single_exact {env : Env} {K : Nat} {l : Leaf} (hl : l.isProperty = false) (F : Value → Prop) :
    Exact K (single env l) (leafLang (Stands env) l) F := by
  have hL : ¬ leafLang (Stands env) l [] := by rintro ⟨v, h, _⟩; simp at h
  refine ⟨?_, fun _ _ _ h => absurd h hL, ?_⟩
  · rintro w r ⟨v, rfl, hv⟩ _ _
    rw [List.singleton_append, single_cons, stands_takes hv]
  · intro input _ hh _
    cases input with
    | nil => rfl
    | cons v input =>
      obtain ⟨b, hb⟩ := takes_some (env := env) hl v
      cases b with
      | true => exact absurd ⟨[], v, rfl, takes_stands hb⟩ hh
      | false => rw [single_cons, hb]

theorem call_exact {env : Env} {K n : Nat} {name : Str} {args : Component}
    (ha : Exact K (args.run env n) (args.lang (Stands env)) fun _ => False) (hc : Closed (Stands env) args) (hb : args.busy = true)
    (hr : args.resolved = true) (hn : K + args.rounds + 1 ≤ n) (F : Value → Prop) :
    Exact K (call name (args.run env n)) (fun w => ∃ c vs, w = [.function c vs] ∧ lower c = lower name ∧ args.lang (Stands env) vs) F := by
  have hL : ¬ ∃ c vs, ([] : List Value) = [.function c vs] ∧ lower c = lower name ∧ args.lang (Stands env) vs := by
    rintro ⟨c, vs, h, _⟩
    simp at h
  refine ⟨?_, fun _ _ _ h => absurd h hL, ?_⟩
  · rintro w r ⟨c, vs, rfl, hcn, hv⟩ _ hd
    simp only [List.singleton_append, deeps, deep] at hd
    have := ha.pos vs [] hv trivial (by rw [List.append_nil]; omega)
    rw [List.append_nil] at this
    simp [call, eqIgnoreCase, hcn, this]
  · intro input hd hh _
    unfold call
    split
    · rename_i c vs r
      split
      · rename_i hcn
        simp only [eqIgnoreCase, decide_eq_true_eq] at hcn
        simp only [deeps, deep] at hd
        have hnl : ¬ args.lang (Stands env) vs := fun hv => hh ⟨[], c, vs, rfl, hcn.symm, hv⟩
        rcases run_sure env args hb hr hn vs (by omega) with h | ⟨r', h⟩
        · rw [h]
        · rw [h]
          cases r' with
          | nil => exact absurd (run_end env n args hc vs h) hnl
          | cons => rfl
      · rfl
    · rfl

theorem clear_ends {leaf : Leaf → Value → Prop} {c : Component} {F : Value → Prop} (h : Clear leaf c F) : Ends c.ms := by
  cases c with
  | leaf l ms => rw [Clear] at h; exact told_ends h.2
  | function name args ms => rw [Clear] at h; exact told_ends h.1
  | group comb cs ms => cases comb <;> (rw [Clear] at h; exact told_ends h.1)

theorem clear_omissible {leaf : Leaf → Value → Prop} {c : Component} {F : Value → Prop} (h : Clear leaf c F) (he : c.lang leaf []) :
    omissible c.ms = true := by
  cases c with
  | leaf l ms =>
    rw [Clear] at h
    rw [Component.lang] at he
    exact told_empty h.2 (by rintro ⟨v, h, _⟩; simp at h) he
  | function name args ms =>
    rw [Clear] at h
    rw [Component.lang] at he
    exact told_empty h.1 (by rintro ⟨c, vs, h, _⟩; simp at h) he
  | group comb cs ms =>
    rw [Component.lang] at he
    cases comb <;> (rw [Clear] at h; exact told_empty h.1 h.2.1 he)

theorem clearSeq_mem {leaf : Leaf → Value → Prop} {F : Value → Prop} : ∀ {cs : List Component}, ClearSeq leaf cs F → ∀ c ∈ cs,
    Ends c.ms
  | [], _, c, h => by simp at h
  | d :: cs, hf, c, h => by
    rw [ClearSeq] at hf
    rcases List.mem_cons.1 h with rfl | h
    · exact clear_ends hf.1
    · exact clearSeq_mem hf.2 c h

/-- the components of a group in any order, as items -/
def anyItems (env : Env) (n : Nat) (F : Value → Prop) : List Lang → List Component → List Item
  | _, [] => []
  | before, c :: cs => ⟨⟨c.ms, c.isComma, c.run env n⟩, c.lang (Stands env),
      fun v => F v ∨ ∃ L ∈ before ++ (items (Stands env) cs).map (·.2), Begins L v⟩ ::
      anyItems env n F (before ++ [c.lang (Stands env)]) cs

theorem anyItems_part (env : Env) (n : Nat) (F : Value → Prop) : ∀ (cs : List Component) (b : List Lang),
    (anyItems env n F b cs).map (·.part) = parts env n cs
  | [], _ => rfl
  | c :: cs, b => by simp [anyItems, parts, anyItems_part env n F cs]

theorem anyItems_lang (env : Env) (n : Nat) (F : Value → Prop) : ∀ (cs : List Component) (b : List Lang),
    (anyItems env n F b cs).map (·.lang) = (items (Stands env) cs).map (·.2)
  | [], _ => rfl
  | c :: cs, b => by simp [anyItems, items, anyItems_lang env n F cs]

theorem anyItems_after (env : Env) (n : Nat) (F : Value → Prop) : ∀ (cs : List Component) (b : List Lang), ∀ x ∈ anyItems env n F b cs,
    (∀ v, F v → x.after v) ∧ (∀ L ∈ b, ∀ v, Begins L v → x.after v)
  | [], _, x, h => by simp [anyItems] at h
  | c :: cs, b, x, h => by
    simp only [anyItems, List.mem_cons] at h
    rcases h with rfl | h
    · exact ⟨fun v hv => .inl hv, fun L hL v hv => .inr ⟨L, List.mem_append_left _ hL, hv⟩⟩
    · have := anyItems_after env n F cs _ x h
      exact ⟨this.1, fun L hL => this.2 L (List.mem_append_left _ hL)⟩

theorem anyItems_pairwise (env : Env) (n : Nat) (F : Value → Prop) : ∀ (cs : List Component) (b : List Lang),
    Distinct ((items (Stands env) cs).map (·.2)) → (anyItems env n F b cs).Pairwise Item.Beside
  | [], _, _ => List.Pairwise.nil
  | c :: cs, b, h => by
    simp only [items, List.map_cons, Distinct] at h
    simp only [anyItems]
    refine List.Pairwise.cons ?_ (anyItems_pairwise env n F cs _ h.2)
    intro y hy
    have hyl : y.lang ∈ (items (Stands env) cs).map (·.2) := by
      rw [← anyItems_lang env n F cs (b ++ [c.lang (Stands env)])]
      exact List.mem_map_of_mem hy
    refine ⟨h.1 _ hyl, ?_, ?_⟩
    · intro v hv
      exact .inr ⟨y.lang, List.mem_append_right _ hyl, hv⟩
    · exact (anyItems_after env n F cs _ y hy).2 _ (by simp)

theorem anyItems_clear {env : Env} {n : Nat} {F : Value → Prop} : ∀ (cs : List Component) (b : List Lang),
    ClearAny (Stands env) b cs F → ∀ x ∈ anyItems env n F b cs, (x.lang [] → omissible x.part.ms = true) ∧
      (omissible x.part.ms = true → x.lang [])
  | [], _, _, x, h => by simp [anyItems] at h
  | c :: cs, b, hc, x, h => by
    rw [ClearAny] at hc
    simp only [anyItems, List.mem_cons] at h
    rcases h with rfl | h
    · exact ⟨fun he => clear_omissible hc.1 he, fun ho => lang_omissible (clear_ends hc.1) ho⟩
    · exact anyItems_clear cs _ hc.2 x h

mutual
theorem run_exact (env : Env) {K n : Nat} : ∀ (c : Component) (F : Value → Prop), Clear (Stands env) c F → K + c.rounds + 1 ≤ n →
    Exact K (c.run env n) (c.lang (Stands env)) F
  | .leaf l ms, F, h, hn => by
    rw [Clear] at h
    rw [Component.rounds] at hn
    unfold Component.run Component.lang
    exact component_exact h.2 (by rintro ⟨v, h, _⟩; simp at h) (single_exact h.1 _) hn
  | .function name args ms, F, h, hn => by
    rw [Clear] at h
    rw [Component.rounds] at hn
    have ih := run_exact env args _ h.2.1 (K := K) (n := n) (by omega)
    unfold Component.run Component.lang
    exact component_exact h.1 (by rintro ⟨c, vs, h, _⟩; simp at h)
      (call_exact ih h.2.2.1 h.2.2.2.1 h.2.2.2.2 (by omega) _) (by omega)
  | .group comb cs ms, F, h, hn => by
    rw [Component.rounds] at hn
    have hr : K + allRounds cs + 1 ≤ n := by omega
    have hseq := seq_exact env cs (K := K) (n := n)
    have hall := all_exact env cs (K := K) (n := n)
    have hany := any_exact env cs (K := K) (n := n)
    unfold Component.run Component.lang
    cases comb with
    | juxtaposition =>
      rw [Clear] at h
      obtain ⟨ht, hL, hc, hin, hs⟩ := h
      refine component_exact ht hL ?_ (by omega)
      have hse := hseq _ hs hr
      have hom : ∀ c ∈ cs, omissible c.ms = true → c.lang (Stands env) [] :=
        fun c hcm ho => lang_omissible (clearSeq_mem hs c hcm) ho
      have hin' : ∀ L ∈ langs (Stands env) cs, ∃ w, L w := by
        intro L hLm
        obtain ⟨i, hi, rfl⟩ := List.mem_map.1 hLm
        exact hin i hi
      refine ⟨?_, fun _ _ _ h => absurd h hL, ?_⟩
      · intro w r hw hr hd
        exact jux_pos env K n _ cs true w r hse ((group_concat hc w).1 hw) hr hd
      · intro input hd hh _
        refine (jux_neg env K n _ cs true input hse hin' hom hc.2 (.inl rfl) hd ?_).2 fun h => hL ((group_concat hc []).2 h)
        cases input with
        | nil => exact id
        | cons v input =>
          rintro ⟨w, hw⟩
          exact hh ⟨w, (group_concat hc _).2 hw⟩
    | exactlyOne =>
      rw [Clear] at h
      obtain ⟨ht, hL, hc, hnn, hs⟩ := h
      refine component_exact ht hL ?_ (by omega)
      have hse := hall _ hs hr
      have := oneOf_exact (comma := leafLang (Stands env) (.literal [','])) (paired env n cs) hse (by
        intro x hx
        apply hnn x.2
        rw [← paired_snd env n]
        exact List.mem_map_of_mem hx) (by
        have e : (paired env n cs).map (·.2.2) = (items (Stands env) cs).map (·.2) := by
          rw [← paired_snd env n, List.map_map]
          rfl
        rw [e]
        exact hc)
      rw [paired_fst, paired_snd] at this
      exact this
    | atLeastOneAnyOrder =>
      rw [Clear] at h
      obtain ⟨ht, hL, hd, hnn, hs⟩ := h
      refine component_exact ht hL ?_ (by omega)
      have hse := hany [] _ hs hr
      have hmem : ∀ x ∈ anyItems env n (Inside ms (Comb.lang (leafLang (Stands env) (.literal [','])) .atLeastOneAnyOrder
          (items (Stands env) cs)) F) [] cs, ∃ i ∈ items (Stands env) cs, i.2 = x.lang := by
        intro x hx
        have : x.lang ∈ (items (Stands env) cs).map (·.2) := by
          rw [← anyItems_lang env n _ cs []]
          exact List.mem_map_of_mem hx
        exact List.mem_map.1 this
      have := oneAny_exact (comma := leafLang (Stands env) (.literal [','])) _ (items (Stands env) cs)
        (anyItems_lang env n _ cs []).symm (anyItems_pairwise env n _ cs [] hd) hse
        (fun x hx => (anyItems_after env n _ cs [] x hx).1)
        (fun x hx => by
          obtain ⟨i, hi, e⟩ := hmem x hx
          rw [← e]
          exact (hnn i hi).1)
        (fun x hx => by
          obtain ⟨i, hi, e⟩ := hmem x hx
          rw [← e]
          exact (hnn i hi).2)
      rw [anyItems_part] at this
      exact this
    | allAnyOrder =>
      rw [Clear] at h
      obtain ⟨ht, hL, hd, hnn, hs⟩ := h
      refine component_exact ht hL ?_ (by omega)
      have hse := hany [] _ hs hr
      have hmem : ∀ x ∈ anyItems env n (Inside ms (Comb.lang (leafLang (Stands env) (.literal [','])) .allAnyOrder
          (items (Stands env) cs)) F) [] cs, ∃ i ∈ items (Stands env) cs, i.2 = x.lang := by
        intro x hx
        have : x.lang ∈ (items (Stands env) cs).map (·.2) := by
          rw [← anyItems_lang env n _ cs []]
          exact List.mem_map_of_mem hx
        exact List.mem_map.1 this
      have := allAny_exact (comma := leafLang (Stands env) (.literal [','])) _ (items (Stands env) cs)
        (anyItems_lang env n _ cs []).symm (anyItems_pairwise env n _ cs [] hd) hse
        (fun x hx => (anyItems_after env n _ cs [] x hx).1)
        (fun x hx => (anyItems_clear cs [] hs x hx).1) (fun x hx => (anyItems_clear cs [] hs x hx).2)
        (fun x hx => by
          obtain ⟨i, hi, e⟩ := hmem x hx
          rw [← e]
          exact (hnn i hi).1)
        (fun x hx => by
          obtain ⟨i, hi, e⟩ := hmem x hx
          rw [← e]
          exact (hnn i hi).2) hL
      rw [anyItems_part] at this
      exact this

theorem seq_exact (env : Env) {K n : Nat} : ∀ (cs : List Component) (F : Value → Prop), ClearSeq (Stands env) cs F →
    K + allRounds cs + 1 ≤ n → SeqExact env K n cs F
  | [], _, _, _ => trivial
  | c :: cs, F, h, hn => by
    rw [ClearSeq] at h
    rw [allRounds] at hn
    exact ⟨run_exact env c _ h.1 (by omega), seq_exact env cs F h.2 (by omega)⟩

theorem all_exact (env : Env) {K n : Nat} : ∀ (cs : List Component) (F : Value → Prop), ClearAll (Stands env) cs F →
    K + allRounds cs + 1 ≤ n → ∀ x ∈ paired env n cs, Exact K x.1.run x.2.2 F
  | [], _, _, _ => by simp [paired, parts]
  | c :: cs, F, h, hn => by
    rw [ClearAll] at h
    rw [allRounds] at hn
    have h1 := run_exact env c F h.1 (K := K) (n := n) (by omega)
    have h2 := all_exact env cs F h.2 (K := K) (n := n) (by omega)
    intro x hx
    rw [paired_cons] at hx
    rcases List.mem_cons.1 hx with rfl | hx
    · exact h1
    · exact h2 x hx

theorem any_exact (env : Env) {K n : Nat} : ∀ (cs : List Component) (b : List Lang) (F : Value → Prop),
    ClearAny (Stands env) b cs F → K + allRounds cs + 1 ≤ n → ∀ x ∈ anyItems env n F b cs, Exact K x.part.run x.lang x.after
  | [], _, _, _, _ => by simp [anyItems]
  | c :: cs, b, F, h, hn => by
    rw [ClearAny] at h
    rw [allRounds] at hn
    have h1 := run_exact env c _ h.1 (K := K) (n := n) (by omega)
    have h2 := any_exact env cs _ F h.2 (K := K) (n := n) (by omega)
    intro x hx
    simp only [anyItems, List.mem_cons] at hx
    rcases hx with rfl | hx
    · exact h1
    · exact h2 x hx
end

end Verif.Grammar
