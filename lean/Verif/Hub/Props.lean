import Verif.Hub.Spec
import Mathlib.Tactic.Common
import Mathlib.Data.List.Nodup
import Mathlib.Data.List.Induction

set_option linter.unusedVariables false

namespace Verif.Hub
open Verif.Map
variable {A : Type}

/-! ### At most once: counting the owners of each sender -/

theorem countP_put_le (m : List (Nat × Nat)) (k x c : Nat) :
    (put m k x).countP (fun e => e.2 == c) ≤
      m.countP (fun e => e.2 == c) + (if x = c then 1 else 0) := by
  induction m with
  | nil => simp [put, List.countP_cons]
  | cons e r ih =>
    obtain ⟨a, v⟩ := e
    simp only [put]
    split
    · simp only [List.countP_cons]
      by_cases h1 : x = c <;> by_cases h2 : v = c <;> simp [h1, h2]
    · simp only [List.countP_cons]; omega

theorem countP_del_le (m : List (Nat × Nat)) (k c : Nat) :
    (del m k).countP (fun e => e.2 == c) + (if look m k = some c then 1 else 0) ≤
      m.countP (fun e => e.2 == c) := by
  induction m with
  | nil => simp [del, look]
  | cons e r ih =>
    obtain ⟨a, v⟩ := e
    simp only [del, ne_eq] at ih ⊢
    rw [List.filter_cons]
    by_cases h : a = k
    · subst h
      have h1 : (r.filter (fun e => decide (¬ e.1 = a))).countP (fun e => e.2 == c) ≤
          r.countP (fun e => e.2 == c) := List.Sublist.countP_le List.filter_sublist
      simp only [not_true_eq_false, decide_false, look, if_true, Option.some.injEq,
        List.countP_cons, Bool.false_eq_true, if_false]
      by_cases h2 : v = c
      · simp only [h2, if_true, beq_self_eq_true]; omega
      · simp only [h2, if_false]; omega
    · simp only [h, not_false_eq_true, decide_true, if_true, look, if_false, List.countP_cons]
      omega

theorem countP_eraseIdx (l : List (Nat × A)) (k c : Nat) (e : Nat × A) (h : l[k]? = some e) :
    (l.eraseIdx k).countP (fun e => e.1 == c) + (if e.1 = c then 1 else 0) =
      l.countP (fun e => e.1 == c) := by
  obtain ⟨hk, he⟩ := List.getElem?_eq_some_iff.mp h
  have hl : l = l.take k ++ e :: l.drop (k+1) := by
    rw [← he]; simp
  rw [List.eraseIdx_eq_take_drop_succ]
  conv => rhs; rw [hl]
  simp only [List.countP_append, List.countP_cons]
  by_cases h1 : e.1 = c
  · simp [h1]; omega
  · simp [h1]

/-- How many senders and delivered answers channel `c` has. -/
def owners (h : Hub A) (c : Nat) : Nat :=
  h.waiters.countP (fun e => e.2 == c) + h.inflight.countP (fun e => e.1 == c) +
    ((h.chans[c]?).map (fun ch => ch.got.length)).getD 0

def OwnInv (h : Hub A) : Prop :=
  ∀ c, owners h c ≤ 1 ∧ (h.chans.length ≤ c → owners h c = 0)

theorem owners_step (h : Hub A) (x : Step A) (hi : OwnInv h) : OwnInv (step h x) := by
  intro c
  obtain ⟨h1, h2⟩ := hi c
  cases x with
  | register t =>
    simp only [step, register]
    have hp := countP_put_le h.waiters t h.chans.length c
    by_cases hc : c = h.chans.length
    · subst hc
      have h0 := h2 (Nat.le_refl _)
      unfold owners at h0 ⊢
      rw [if_pos rfl] at hp
      rw [List.getElem?_eq_none (Nat.le_refl _)] at h0
      simp only [List.getElem?_concat_length, Option.map_some, Option.map_none, Option.getD_some,
        Option.getD_none, List.length_nil, List.length_append, List.length_cons] at h0 ⊢
      omega
    · have hne : ¬ h.chans.length = c := fun e => hc e.symm
      rw [if_neg hne] at hp
      have hget : (h.chans ++ [(⟨t, [], true⟩ : Chan A)])[c]? = h.chans[c]? := by
        by_cases hlt : c < h.chans.length
        · rw [List.getElem?_append_left hlt]
        · rw [List.getElem?_eq_none (by simp; omega), List.getElem?_eq_none (by omega)]
      unfold owners at h1 h2 ⊢
      simp only [hget]
      refine ⟨by omega, ?_⟩
      intro hl
      simp only [List.length_append, List.length_cons, List.length_nil] at hl
      have := h2 (by omega)
      omega
  | take t a =>
    simp only [step, take]
    cases hg : look h.waiters t with
    | none => exact ⟨h1, h2⟩
    | some d =>
      have hd := countP_del_le h.waiters t c
      rw [hg] at hd
      unfold owners at h1 h2 ⊢
      simp only [List.countP_append, List.countP_cons, List.countP_nil, Option.some.injEq] at hd ⊢
      by_cases hdc : d = c
      · simp only [hdc, if_true, beq_self_eq_true] at hd ⊢
        refine ⟨by omega, fun hl => ?_⟩
        have := h2 hl; omega
      · simp only [hdc, if_false] at hd ⊢
        have : (d == c) = false := by simp [hdc]
        simp only [this, Bool.false_eq_true, if_false]
        refine ⟨by omega, fun hl => ?_⟩
        have := h2 hl; omega
  | send k =>
    simp only [step, send]
    cases hk : h.inflight[k]? with
    | none => exact ⟨h1, h2⟩
    | some e =>
      obtain ⟨d, a⟩ := e
      have he := countP_eraseIdx h.inflight k c (d, a) hk
      simp only at he
      unfold owners at h1 h2 ⊢
      simp only [List.getElem?_modify, List.length_modify]
      have hgot : (Option.map (fun ch : Chan A => ch.got.length)
          ((fun a_1 => if d = c then deliver a a_1 else a_1) <$> h.chans[c]?)).getD 0 ≤
          (Option.map (fun ch : Chan A => ch.got.length) h.chans[c]?).getD 0 + (if d = c then 1 else 0) := by
        cases h.chans[c]? with
        | none => simp
        | some ch =>
          simp only [Option.map_eq_map, Option.map_some, Option.getD_some]
          by_cases hdc : d = c
          · simp only [hdc, if_true, deliver]; split <;> simp
          · simp only [hdc, if_false]; omega
      refine ⟨by omega, fun hl => ?_⟩
      have := h2 hl; omega
  | dropRx d =>
    simp only [step, dropRx]
    unfold owners at h1 h2 ⊢
    simp only [List.getElem?_modify, List.length_modify]
    have hgot : (Option.map (fun ch : Chan A => ch.got.length)
        ((fun a_1 => if d = c then { a_1 with rxAlive := false } else a_1) <$> h.chans[c]?)).getD 0 =
        (Option.map (fun ch : Chan A => ch.got.length) h.chans[c]?).getD 0 := by
      cases h.chans[c]? with
      | none => simp
      | some ch => by_cases hdc : d = c <;> simp [hdc]
    rw [hgot]
    exact ⟨h1, h2⟩

theorem owners_run (h : Hub A) (s : List (Step A)) (hi : OwnInv h) : OwnInv (run h s) := by
  induction s generalizing h with
  | nil => exact hi
  | cons x s ih => exact ih (step h x) (owners_step h x hi)

theorem owners_init : OwnInv (init : Hub A) := by
  intro c; simp [owners, init]

/-! ### Which answer -/

theorem firstFulfilment_append (t : Nat) (s : List (Step A)) (x : Step A) :
    firstFulfilment t (s ++ [x]) = (firstFulfilment t s).or (firstFulfilment t [x]) := by
  induction s with
  | nil => simp [firstFulfilment]
  | cons y s ih =>
    cases y with
    | take u a =>
      simp only [List.cons_append, firstFulfilment, ih]
      split <;> simp
    | _ => simpa only [List.cons_append, firstFulfilment] using ih

theorem registered_append (s : List (Step A)) (x : Step A) :
    registered (s ++ [x]) = registered s ++ registered [x] := by
  simp [registered]

theorem answer_append (t : Nat) (s : List (Step A)) (x : Step A) :
    answer t (s ++ [x]) = (answer t s).or (if t ∈ registered s then firstFulfilment t [x] else none) := by
  induction s with
  | nil => cases x <;> simp [answer, registered, firstFulfilment]
  | cons y s ih =>
    cases y with
    | register u =>
      simp only [List.cons_append, answer]
      by_cases h : u = t
      · subst h
        simp only [if_true, firstFulfilment_append]
        simp [registered]
      · simp only [h, if_false, ih]
        have : (t ∈ registered (Step.register u :: s)) ↔ t ∈ registered s := by
          rw [show registered (Step.register u :: s) = u :: registered s from rfl, List.mem_cons]
          exact ⟨fun e => e.elim (fun e => absurd e.symm h) id, .inr⟩
        simp only [this]
    | _ => exact ih

theorem answer_none_of_not_registered (t : Nat) (s : List (Step A)) (h : t ∉ registered s) :
    answer t s = none := by
  induction s with
  | nil => rfl
  | cons y s ih =>
    cases y with
    | register u =>
      simp [registered] at h
      simp only [answer]
      rw [if_neg (fun e => h.1 e.symm)]
      exact ih (by simpa [registered] using h.2)
    | _ => exact ih (by simpa [registered] using h)

structure AnsInv (s : List (Step A)) (h : Hub A) : Prop where
  toks : h.chans.map Chan.token = registered s
  wait : ∀ t c, look h.waiters t = some c → ∃ ch, h.chans[c]? = some ch ∧ ch.token = t
  open' : ∀ (c : Nat) (ch : Chan A), h.chans[c]? = some ch → answer ch.token s = none →
    look h.waiters ch.token = some c ∧ ch.got = [] ∧ (∀ e ∈ h.inflight, e.1 ≠ c)
  done : ∀ (c : Nat) (ch : Chan A) (a : A), h.chans[c]? = some ch → answer ch.token s = some a →
    look h.waiters ch.token = none ∧ (∀ b ∈ ch.got, b = a) ∧ (∀ e ∈ h.inflight, e.1 = c → e.2 = a) ∧
    (ch.rxAlive = true → ch.got = [] → ∃ e ∈ h.inflight, e.1 = c)
  lt : ∀ e ∈ h.inflight, e.1 < h.chans.length

theorem mem_registered_of_chan {s : List (Step A)} {h : Hub A} (hi : AnsInv s h) {c : Nat} {ch : Chan A}
    (hc : h.chans[c]? = some ch) : ch.token ∈ registered s := by
  rw [← hi.toks]; exact List.mem_map_of_mem (List.mem_of_getElem? hc)

theorem chan_of_registered {s : List (Step A)} {h : Hub A} (hi : AnsInv s h) {t : Nat}
    (ht : t ∈ registered s) : ∃ (c : Nat) (ch : Chan A), h.chans[c]? = some ch ∧ ch.token = t := by
  rw [← hi.toks] at ht
  obtain ⟨ch, h1, h2⟩ := List.mem_map.mp ht
  obtain ⟨c, hc⟩ := List.mem_iff_getElem?.mp h1
  exact ⟨c, ch, hc, h2⟩

theorem chan_unique {s : List (Step A)} {h : Hub A} (hi : AnsInv s h) (hf : Fresh s) {c d : Nat}
    {ch ch' : Chan A} (hc : h.chans[c]? = some ch) (hd : h.chans[d]? = some ch')
    (ht : ch.token = ch'.token) : c = d := by
  have hn : (h.chans.map Chan.token).Nodup := by rw [hi.toks]; exact hf
  have hc' := (List.getElem?_eq_some_iff.mp hc)
  have hd' := (List.getElem?_eq_some_iff.mp hd)
  refine (List.Nodup.getElem_inj_iff hn (hi := by simpa using hc'.1) (hj := by simpa using hd'.1)).mp ?_
  simp [hc'.2, hd'.2, ht]

theorem ansInv_step (s : List (Step A)) (h : Hub A) (x : Step A) (hf : Fresh (s ++ [x]))
    (hi : AnsInv s h) : AnsInv (s ++ [x]) (step h x) := by
  have hfs : Fresh s := by
    unfold Fresh at hf ⊢; rw [registered_append] at hf; exact (List.nodup_append.mp hf).1
  cases x with
  | register t =>
    have hnew : t ∉ registered s := by
      unfold Fresh at hf; rw [registered_append] at hf
      intro hm
      exact (List.nodup_append.mp hf).2.2 t hm t (by simp [registered]) rfl
    have hans : ∀ u, answer u (s ++ [Step.register t]) = answer u s := by
      intro u; rw [answer_append]; simp [firstFulfilment]
    have hget : ∀ (c : Nat) (ch : Chan A), (h.chans ++ [(⟨t, [], true⟩ : Chan A)])[c]? = some ch →
        (c < h.chans.length ∧ h.chans[c]? = some ch) ∨ (c = h.chans.length ∧ ch = ⟨t, [], true⟩) := by
      intro c ch hc
      by_cases hlt : c < h.chans.length
      · rw [List.getElem?_append_left hlt] at hc; exact .inl ⟨hlt, hc⟩
      · right
        have := (List.getElem?_eq_some_iff.mp hc).1
        simp at this
        have hce : c = h.chans.length := by omega
        subst hce; simp at hc; exact ⟨rfl, hc.symm⟩
    simp only [step, register]
    constructor
    · simp [registered_append, hi.toks]; rfl
    · intro u c hu
      rw [look_put] at hu
      split at hu
      · rename_i hut; subst hut; simp at hu; subst hu; exact ⟨⟨t, [], true⟩, by simp, rfl⟩
      · obtain ⟨ch, h1, h2⟩ := hi.wait u c hu
        refine ⟨ch, ?_, h2⟩
        rw [List.getElem?_append_left (List.getElem?_eq_some_iff.mp h1).1]; exact h1
    · intro c ch hc ha
      rw [hans] at ha
      rcases hget c ch hc with ⟨hlt, hc⟩ | ⟨rfl, rfl⟩
      · obtain ⟨h1, h2, h3⟩ := hi.open' c ch hc ha
        refine ⟨?_, h2, h3⟩
        rw [look_put, if_neg (fun e => hnew (by rw [e]; exact mem_registered_of_chan hi hc))]
        exact h1
      · refine ⟨by simp [look_put], rfl, ?_⟩
        intro e he heq; have := hi.lt e he; omega
    · intro c ch a hc ha
      rw [hans] at ha
      rcases hget c ch hc with ⟨hlt, hc⟩ | ⟨rfl, rfl⟩
      · obtain ⟨h1, h2⟩ := hi.done c ch a hc ha
        refine ⟨?_, h2⟩
        rw [look_put, if_neg (fun e => hnew (by rw [e]; exact mem_registered_of_chan hi hc))]
        exact h1
      · rw [answer_none_of_not_registered _ _ hnew] at ha; cases ha
    · intro e he; have := hi.lt e he; simp; omega
  | take t a =>
    have hregs : registered (s ++ [Step.take t a]) = registered s := by
      rw [registered_append]; simp [registered]
    have hans : ∀ u, answer u (s ++ [Step.take t a]) =
        (answer u s).or (if u ∈ registered s then (if t = u then some a else none) else none) := by
      intro u; rw [answer_append]; rfl
    simp only [step, take]
    cases hg : look h.waiters t with
    | none =>
      -- unknown or already answered: nothing changes
      have hsame : ∀ u, answer u (s ++ [Step.take t a]) = answer u s := by
        intro u
        rw [hans]
        cases ha : answer u s with
        | some b => rfl
        | none =>
          by_cases hu : u ∈ registered s
          · obtain ⟨c, ch, h1, rfl⟩ := chan_of_registered hi hu
            have := (hi.open' c ch h1 ha).1
            have hne : ¬ t = ch.token := fun e => by rw [← e, hg] at this; cases this
            simp [hne]
          · simp [hu]
      constructor
      · rw [hregs]; exact hi.toks
      · exact hi.wait
      · intro c ch hc ha; rw [hsame] at ha; exact hi.open' c ch hc ha
      · intro c ch b hc ha; rw [hsame] at ha; exact hi.done c ch b hc ha
      · exact hi.lt
    | some d =>
      obtain ⟨chd, hd1, hd2⟩ := hi.wait t d hg
      have htr : t ∈ registered s := by rw [← hd2]; exact mem_registered_of_chan hi hd1
      have hopen : answer t s = none := by
        cases ha : answer t s with
        | none => rfl
        | some b => have := (hi.done d chd b hd1 (by rw [hd2]; exact ha)).1; rw [hd2, hg] at this; cases this
      have hansne : ∀ u, u ≠ t → answer u (s ++ [Step.take t a]) = answer u s := by
        intro u hu; rw [hans, if_neg (fun e : t = u => hu e.symm)]; simp
      have hanst : answer t (s ++ [Step.take t a]) = some a := by
        rw [hans, hopen]; simp [htr]
      constructor
      · rw [hregs]; exact hi.toks
      · intro u c hu
        rw [look_del] at hu
        split at hu
        · cases hu
        · exact hi.wait u c hu
      · intro c ch hc ha
        have hne : ch.token ≠ t := fun e => by rw [e, hanst] at ha; cases ha
        rw [hansne _ hne] at ha
        obtain ⟨h1, h2, h3⟩ := hi.open' c ch hc ha
        refine ⟨by rw [look_del, if_neg hne]; exact h1, h2, ?_⟩
        intro e he
        rcases List.mem_append.mp he with he | he
        · exact h3 e he
        · simp at he; subst he
          intro hdc
          simp only at hdc; subst hdc
          rw [hd1] at hc; cases hc; exact hne hd2
      · intro c ch b hc ha
        by_cases hne : ch.token = t
        · rw [hne, hanst] at ha; cases ha
          have hcd : c = d := chan_unique hi hfs hc hd1 (by rw [hne, hd2])
          subst hcd
          rw [hd1] at hc; cases hc
          obtain ⟨h1, h2, h3⟩ := hi.open' c chd hd1 (by rw [hd2]; exact hopen)
          refine ⟨by rw [look_del, if_pos hne], by simp [h2], ?_, ?_⟩
          · intro e he heq
            rcases List.mem_append.mp he with he | he
            · exact absurd heq (h3 e he)
            · simp at he; subst he; rfl
          · intro _ _; exact ⟨(c, a), by simp, rfl⟩
        · rw [hansne _ hne] at ha
          obtain ⟨h1, h2, h3, h4⟩ := hi.done c ch b hc ha
          refine ⟨by rw [look_del, if_neg hne]; exact h1, h2, ?_, ?_⟩
          · intro e he heq
            rcases List.mem_append.mp he with he | he
            · exact h3 e he heq
            · simp at he; subst he
              simp only at heq; subst heq
              rw [hd1] at hc; cases hc; exact absurd hd2 hne
          · intro h5 h6
            obtain ⟨e, he, heq⟩ := h4 h5 h6
            exact ⟨e, by simp [he], heq⟩
      · intro e he
        rcases List.mem_append.mp he with he | he
        · exact hi.lt e he
        · simp at he; subst he; exact (List.getElem?_eq_some_iff.mp hd1).1
  | send k =>
    have hregs : registered (s ++ [(Step.send k : Step A)]) = registered s := by
      rw [registered_append]; simp [registered]
    have hans : ∀ u, answer u (s ++ [(Step.send k : Step A)]) = answer u s := by
      intro u; rw [answer_append]; simp [firstFulfilment]
    simp only [step, send]
    cases hk : h.inflight[k]? with
    | none =>
      exact ⟨by rw [hregs]; exact hi.toks, hi.wait, fun c ch hc ha => hi.open' c ch hc (by rw [← hans]; exact ha),
        fun c ch b hc ha => hi.done c ch b hc (by rw [← hans]; exact ha), hi.lt⟩
    | some e =>
      obtain ⟨d, a⟩ := e
      have hmem : (d, a) ∈ h.inflight := List.mem_of_getElem? hk
      have hsub : ∀ e ∈ h.inflight.eraseIdx k, e ∈ h.inflight := fun e he => List.mem_of_mem_eraseIdx he
      have hget : ∀ (c : Nat) (ch : Chan A), (h.chans.modify d (deliver a))[c]? = some ch →
          ∃ ch0, h.chans[c]? = some ch0 ∧ ch = (if d = c then deliver a ch0 else ch0) := by
        intro c ch hc
        rw [List.getElem?_modify] at hc
        cases h0 : h.chans[c]? with
        | none => rw [h0] at hc; simp at hc
        | some ch0 => rw [h0] at hc; simp at hc; exact ⟨ch0, rfl, hc.symm⟩
      have htok : ∀ ch0 : Chan A, (deliver a ch0).token = ch0.token := by
        intro ch0; unfold deliver; split <;> rfl
      constructor
      · rw [hregs, ← hi.toks]
        apply List.ext_getElem?
        intro i
        rw [List.getElem?_map, List.getElem?_modify, List.getElem?_map]
        cases h.chans[i]? with
        | none => rfl
        | some ch0 => by_cases hdi : d = i <;> simp [hdi, htok]
      · intro t c ht
        obtain ⟨ch, h1, h2⟩ := hi.wait t c ht
        refine ⟨_, by rw [List.getElem?_modify, h1]; rfl, ?_⟩
        split
        · rw [htok]; exact h2
        · exact h2
      · intro c ch hc ha
        obtain ⟨ch0, h1, rfl⟩ := hget c ch hc
        rw [hans] at ha
        by_cases hdc : d = c
        · subst hdc
          rw [if_pos rfl, htok] at ha
          exact absurd rfl ((hi.open' d ch0 h1 ha).2.2 (d, a) hmem)
        · rw [if_neg hdc] at ha ⊢
          obtain ⟨h2, h3, h4⟩ := hi.open' c ch0 h1 ha
          exact ⟨h2, h3, fun e he => h4 e (hsub e he)⟩
      · intro c ch b hc ha
        obtain ⟨ch0, h1, rfl⟩ := hget c ch hc
        rw [hans] at ha
        by_cases hdc : d = c
        · subst hdc
          rw [if_pos rfl] at ha ⊢
          rw [htok] at ha ⊢
          obtain ⟨h2, h3, h4, h5⟩ := hi.done d ch0 b h1 ha
          have hab : a = b := h4 (d, a) hmem rfl
          refine ⟨h2, ?_, fun e he heq => h4 e (hsub e he) heq, ?_⟩
          · intro x hx
            unfold deliver at hx
            split at hx
            · simp at hx
              rcases hx with hx | hx
              · exact h3 x hx
              · rw [hx, hab]
            · exact h3 x hx
          · intro hrx hgot
            unfold deliver at hrx hgot
            split at hgot
            · simp at hgot
            · rename_i hnot
              rw [if_neg hnot] at hrx; exact absurd hrx hnot
        · rw [if_neg hdc] at ha ⊢
          obtain ⟨h2, h3, h4, h5⟩ := hi.done c ch0 b h1 ha
          refine ⟨h2, h3, fun e he heq => h4 e (hsub e he) heq, ?_⟩
          intro hrx hgot
          obtain ⟨e, he, heq⟩ := h5 hrx hgot
          refine ⟨e, ?_, heq⟩
          obtain ⟨i, hi'⟩ := List.mem_iff_getElem?.mp he
          have hik : i ≠ k := by
            intro e1; subst e1; rw [hk] at hi'; cases hi'; exact hdc heq
          rw [List.mem_eraseIdx_iff_getElem?]
          exact ⟨i, hik, hi'⟩
      · intro e he; simp; exact hi.lt e (hsub e he)
  | dropRx d =>
    have hregs : registered (s ++ [(Step.dropRx d : Step A)]) = registered s := by
      rw [registered_append]; simp [registered]
    have hans : ∀ u, answer u (s ++ [(Step.dropRx d : Step A)]) = answer u s := by
      intro u; rw [answer_append]; simp [firstFulfilment]
    simp only [step, dropRx]
    have hget : ∀ (c : Nat) (ch : Chan A), (h.chans.modify d (fun c => { c with rxAlive := false }))[c]? = some ch →
        ∃ ch0, h.chans[c]? = some ch0 ∧ ch.token = ch0.token ∧ ch.got = ch0.got ∧
          (ch.rxAlive = true → ch0.rxAlive = true) := by
      intro c ch hc
      rw [List.getElem?_modify] at hc
      cases h0 : h.chans[c]? with
      | none => rw [h0] at hc; simp at hc
      | some ch0 =>
        rw [h0] at hc; simp at hc
        refine ⟨ch0, rfl, ?_⟩
        subst hc
        split <;> simp
    constructor
    · rw [hregs, ← hi.toks]
      apply List.ext_getElem?
      intro i
      rw [List.getElem?_map, List.getElem?_modify, List.getElem?_map]
      cases h.chans[i]? with
      | none => rfl
      | some ch0 => by_cases hdi : d = i <;> simp [hdi]
    · intro t c ht
      obtain ⟨ch, h1, h2⟩ := hi.wait t c ht
      refine ⟨_, by rw [List.getElem?_modify, h1]; rfl, ?_⟩
      split <;> exact h2
    · intro c ch hc ha
      obtain ⟨ch0, h1, h2, h3, _⟩ := hget c ch hc
      rw [hans, h2] at ha
      rw [h2, h3]; exact hi.open' c ch0 h1 ha
    · intro c ch b hc ha
      obtain ⟨ch0, h1, h2, h3, h4⟩ := hget c ch hc
      rw [hans, h2] at ha
      obtain ⟨h5, h6, h7, h8⟩ := hi.done c ch0 b h1 ha
      rw [h2, h3]
      exact ⟨h5, h6, h7, fun hrx hg => h8 (h4 hrx) hg⟩
    · intro e he; simp; exact hi.lt e he

theorem ansInv_run (s : List (Step A)) (hf : Fresh s) : AnsInv s (run init s) := by
  induction s using List.reverseRecOn with
  | nil => constructor <;> simp [init, run, registered, look]
  | append_singleton s x ih =>
    have hfs : Fresh s := by
      unfold Fresh at hf ⊢; rw [registered_append] at hf; exact (List.nodup_append.mp hf).1
    have : run init (s ++ [x]) = step (run init s) x := by simp [run]
    rw [this]
    exact ansInv_step s _ x hf (ih hfs)

/-! ## C25 -/

/-- Every request ever registered receives at most one answer, whatever the schedule — even if two
tokens collided. -/
theorem C25_at_most_once (s : List (Step A)) (c : Nat) (ch : Chan A)
    (hc : (run init s).chans[c]? = some ch) : ch.got.length ≤ 1 := by
  have := (owners_run init s owners_init c).1
  unfold owners at this
  rw [hc] at this
  simp at this
  omega

/-- The answer a request receives is the one of the first fulfilment that names it after it was
registered. -/
theorem C25_right_answer (s : List (Step A)) (hf : Fresh s) (c : Nat) (ch : Chan A) (a : A)
    (hc : (run init s).chans[c]? = some ch) (ha : a ∈ ch.got) : answer ch.token s = some a := by
  have hi := ansInv_run s hf
  cases h : answer ch.token s with
  | none => have := (hi.open' c ch hc h).2.1; rw [this] at ha; simp at ha
  | some b => rw [(hi.done c ch b hc h).2.1 a ha]

/-- Each registration has its own channel, under the token it was given. -/
theorem C25_channels (s : List (Step A)) (hf : Fresh s) :
    (run init s).chans.map Chan.token = registered s := (ansInv_run s hf).toks

/-- Once no fulfilment is in the middle of its call, every request that was answered and is still
waiting has received its answer. -/
theorem C25_delivered (s : List (Step A)) (hf : Fresh s) (hq : (run init s).inflight = [])
    (c : Nat) (ch : Chan A) (a : A) (hc : (run init s).chans[c]? = some ch) (hrx : ch.rxAlive = true)
    (ha : answer ch.token s = some a) : ch.got = [a] := by
  have hi := ansInv_run s hf
  obtain ⟨_, h2, _, h4⟩ := hi.done c ch a hc ha
  have hone := C25_at_most_once s c ch hc
  cases hg : ch.got with
  | nil => obtain ⟨e, he, _⟩ := h4 hrx hg; rw [hq] at he; simp at he
  | cons b r =>
    rw [hg] at hone; simp at hone; subst hone
    rw [h2 b (by simp [hg])]

/-- A fulfilment naming an unknown or an already answered request changes nothing. -/
theorem C25_refused (s : List (Step A)) (hf : Fresh s) (tok : Nat) (b : A)
    (h : tok ∉ registered s ∨ ∃ a, answer tok s = some a) :
    step (run init s) (.take tok b) = run init s := by
  have hi := ansInv_run s hf
  have hg : look (run init s).waiters tok = none := by
    cases hg : look (run init s).waiters tok with
    | none => rfl
    | some c =>
      obtain ⟨ch, h1, h2⟩ := hi.wait tok c hg
      have hm := mem_registered_of_chan hi h1
      rw [h2] at hm
      rcases h with h | ⟨a, ha⟩
      · exact absurd hm h
      · have := (hi.done c ch a h1 (by rw [h2]; exact ha)).1
        rw [h2, hg] at this; cases this
  simp [step, take, hg]

/-- A fulfilment naming a request that is still waiting is accepted: it becomes the answer. -/
theorem C25_accepted (s : List (Step A)) (tok : Nat) (b : A) (hr : tok ∈ registered s)
    (ha : answer tok s = none) : answer tok (s ++ [.take tok b]) = some b := by
  rw [answer_append, ha]; simp [hr, firstFulfilment]

/-- Two threads answer request 7 concurrently; a third answers request 9; the first to remove the
waiter wins although the other one sends first. -/
def demo : List (Step Nat) :=
  [.register 7, .register 9, .take 7 100, .take 9 300, .take 7 200, .send 1, .send 0]

example : Fresh demo ∧ (run init demo).inflight = [] ∧ answer 7 demo = some 100 ∧
    (run init demo).chans = [⟨7, [100], true⟩, ⟨9, [300], true⟩] := by
  refine ⟨by unfold Fresh; decide, by decide, by decide, by decide⟩

end Verif.Hub
