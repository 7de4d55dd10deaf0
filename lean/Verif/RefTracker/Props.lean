import Verif.RefTracker.Lemmas

set_option linter.unusedVariables false

namespace Verif.RefTracker
open Verif.Map

/-! ## C26 -/

/-- Both lookup directions agree, in every schedule of concurrent registrations: what a call
returned for a reference is mapped back to that reference from then on, the same reference always
gets the same tag and different references get different tags. -/
theorem C26_lookups_agree (s : List RegStep) (g : Registry) (h : Registry.init.run s = some g)
    (k : Nat) (r : Ref) (n : NetRef) (hk : g.result k = some (r, n)) :
    g.fromNet n = some r ∧
    ∀ j r' n', g.result j = some (r', n') → (r' = r ↔ n' = n) := by
  have hi := reg_run reg_init h
  have key : ∀ (k : Nat) (r : Ref) (n : NetRef), g.result k = some (r, n) →
      ∃ id, n = .tagged id ∧ look g.forward r = some id ∧ look g.reverse id = some r := by
    intro k r n hk
    unfold Registry.result at hk
    split at hk
    · rename_i r' id hc
      simp at hk; obtain ⟨rfl, rfl⟩ := hk
      have := hi.don k _ id hc
      exact ⟨id, rfl, this, hi.fwd _ _ this⟩
    · simp at hk
  obtain ⟨id, rfl, h1, h2⟩ := key k r n hk
  refine ⟨h2, ?_⟩
  intro j r' n' hj
  obtain ⟨id', rfl, h3, h4⟩ := key j r' n' hj
  constructor
  · rintro rfl; rw [h1] at h3; cases h3; rfl
  · intro e; simp at e; subst e; rw [h2] at h4; cases h4; rfl

/-- Later steps never change what a tag stands for. -/
theorem C26_lookup_stable (s s' : List RegStep) (g g' : Registry) (h : Registry.init.run s = some g)
    (h' : g.run s' = some g') (k : Nat) (r : Ref) (n : NetRef) (hk : g.result k = some (r, n)) :
    g'.result k = some (r, n) ∧ g'.fromNet n = some r := by
  have hstep : ∀ (g1 g2 : Registry) (x : RegStep), g1.step x = some g2 → g1.result k = some (r, n) →
      g2.result k = some (r, n) := by
    intro g1 g2 x hx hr
    have hlt : k < g1.calls.length := by
      unfold Registry.result at hr
      split at hr
      · rename_i hc; exact (List.getElem?_eq_some_iff.mp hc).1
      · simp at hr
    cases x with
    | begin r0 =>
      simp only [Registry.step, Registry.begin] at hx
      split at hx
      · simp at hx
      · split at hx <;>
        · simp at hx; subst hx
          simpa only [Registry.result, List.getElem?_append_left hlt] using hr
    | advance j =>
      simp only [Registry.step, Registry.advance] at hx
      cases hj : g1.calls[j]? with
      | none => rw [hj] at hx; simp at hx
      | some c =>
        obtain ⟨rc, st⟩ := c
        rw [hj] at hx; simp only at hx
        have hne : (∀ id, st ≠ .done id) → j ≠ k := by
          intro hst e; subst e
          unfold Registry.result at hr
          rw [hj] at hr
          cases st <;> simp_all
        cases st <;> simp at hx <;>
        · subst hx
          simpa only [Registry.result, List.getElem?_set_ne (hne (by simp))] using hr
  have hrun : ∀ (s' : List RegStep) (g1 : Registry), g1.run s' = some g' → g1.result k = some (r, n) →
      g'.result k = some (r, n) := by
    intro s'
    induction s' with
    | nil => intro g1 h1 h2; simp [Registry.run] at h1; subst h1; exact h2
    | cons x s' ih =>
      intro g1 h1 h2
      simp only [Registry.run] at h1
      cases hx : g1.step x with
      | none => rw [hx] at h1; simp at h1
      | some g2 => rw [hx] at h1; exact ih g2 h1 (hstep g1 g2 x hx h2)
  have hres := hrun s' g h' hk
  refine ⟨hres, ?_⟩
  have hi := reg_run (reg_run reg_init h) h'
  unfold Registry.result at hres
  split at hres
  · rename_i r' id hc
    simp at hres; obtain ⟨rfl, rfl⟩ := hres
    exact hi.fwd _ _ (hi.don k _ id hc)
  · simp at hres

/-- Two threads register the same reference and a third another one, interleaved: the second call
of the same reference waits for the lock. -/
def regDemo : List RegStep :=
  [.begin (.navigation 5), .begin (.document 5), .advance 0, .advance 1, .advance 1, .advance 0,
   .advance 0, .begin (.navigation 5), .advance 1]

example : ∃ g, Registry.init.run regDemo = some g ∧
    g.result 0 = some (.navigation 5, .tagged 1) ∧ g.result 1 = some (.document 5, .tagged 2) ∧
    g.result 2 = some (.navigation 5, .tagged 1) := ⟨_, rfl, rfl, rfl, rfl⟩

/-- Under the intended use (`Disciplined`), whatever the interleaving, a group disappears from the
registry only when all its requests have finished and it has been finalized. -/
theorem C26_removed_only_when_over_partial (m0 : List (Ref × Nat)) (s : List Step) (t : Tracker) (r : Ref)
    (h : (Tracker.init m0).run s = some t) (hd : Disciplined s)
    (h0 : (Tracker.init m0).registered r) (hgone : ¬ t.registered r) : Over r s := by
  have hi := trInv_run m0 r s t hd h
  simp only [Tracker.registered, Tracker.init] at h0 hgone
  have : look t.refMap r = none := by
    cases hl : look t.refMap r with
    | none => rfl
    | some v => rw [hl] at hgone; simp at hgone
  rcases hi.gone this with h | h
  · rw [h] at h0; simp at h0
  · exact h

/-- Under the intended use, whatever the interleaving — in particular whether the last request
finishes before, after or during the finalization — once no call is in progress a finished and
finalized group is gone, from the registry and from the tracker. -/
theorem C26_cleaned_up_partial (m0 : List (Ref × Nat)) (s : List Step) (t : Tracker) (r : Ref)
    (h : (Tracker.init m0).run s = some t) (hd : Disciplined s) (hq : t.quiet) (ho : Over r s) :
    ¬ t.registered r ∧ ¬ t.tracked r := by
  have hi := trInv_run m0 r s t hd h
  constructor
  · intro hr
    obtain ⟨k, st, h1, h2⟩ := hi.progMap ho (by intro e; simp [Tracker.registered, e] at hr)
    have := hq _ (List.mem_of_getElem? h1)
    simp only at this; subst this; exact h2
  · intro hr
    obtain ⟨k, st, h1, h2⟩ := hi.progInner ho (by intro e; simp [Tracker.tracked, e] at hr)
    have := hq _ (List.mem_of_getElem? h1)
    simp only at this; subst this; exact h2

/-- Groups do not interfere: a group nobody finalized stays. -/
theorem C26_others_stay (m0 : List (Ref × Nat)) (s : List Step) (t : Tracker) (r : Ref)
    (h : (Tracker.init m0).run s = some t) (hd : Disciplined s)
    (h0 : (Tracker.init m0).registered r) (hn : ¬ Finalized r s) : t.registered r := by
  by_contra hgone
  exact hn (C26_removed_only_when_over_partial m0 s t r h hd h0 hgone).1

/-- The last request finishes while the finalization is between its store and its load: the two
calls overlap completely. -/
def demo : List Step :=
  [.inc (.navigation 1), .inc (.document 2), .finalize (.navigation 1), .dec (.navigation 1),
   .advance 0, .advance 1, .advance 0, .advance 1, .advance 0, .advance 1]

theorem demo_disciplined : Disciplined demo := by
  intro p x q hs
  have hl : p = demo.take p.length := by rw [hs]; simp
  have hx : demo[p.length]? = some x := by rw [hs]; simp
  have hlt : p.length < 10 := by
    have := (List.getElem?_eq_some_iff.mp hx).1; simpa [demo] using this
  generalize p.length = n at *
  subst hl
  have hn : n = 0 ∨ n = 1 ∨ n = 2 ∨ n = 3 ∨ n = 4 ∨ n = 5 ∨ n = 6 ∨ n = 7 ∨ n = 8 ∨ n = 9 := by omega
  rcases hn with rfl | rfl | rfl | rfl | rfl | rfl | rfl | rfl | rfl | rfl <;>
    (simp [demo] at hx; subst hx; simp [demo, Finalized, finished, started])

example : ∃ t, (Tracker.init [(.navigation 1, 7), (.document 2, 7)]).run demo = some t ∧
    t.threads.all (fun th => decide (th.stage = .done)) = true ∧
    t.refMap = [(.document 2, 7)] ∧ t.inner = [(.document 2, (1, false))] := ⟨_, rfl, by decide, rfl, rfl⟩

/-- Without the discipline the removal can hit a live group: a request started between the test of
the last finishing request and its removals is forgotten while it is still running. -/
theorem C26_race_violated :
    ∃ s t r, (Tracker.init [(r, 7)]).run s = some t ∧ t.quiet ∧ started r s = finished r s + 1 ∧
      ¬ t.registered r ∧ ¬ t.tracked r :=
  ⟨[.inc (.navigation 1), .finalize (.navigation 1), .advance 0, .dec (.navigation 1), .advance 1,
    .inc (.navigation 1), .advance 1, .advance 1], _, .navigation 1, rfl, by decide, by decide,
    by decide, by decide⟩

/-- A finish without a start makes the counter wrap around: the group is then never removed. -/
theorem C26_unmatched_violated :
    ∃ s t r, (Tracker.init [(r, 7)]).run s = some t ∧ t.quiet ∧ Finalized r s ∧
      started r s ≤ finished r s ∧ t.registered r :=
  ⟨[.inc (.navigation 1), .dec (.navigation 1), .advance 0, .dec (.navigation 1), .advance 1,
    .finalize (.navigation 1), .advance 2], _, .navigation 1, rfl, by decide, by decide, by decide,
    by decide⟩

end Verif.RefTracker
