import Verif.History.Lemmas

set_option linter.unusedVariables false

namespace Verif.History

/-! ## C23 -/

/-- Start page, two pages from it (branching), and a child of the first. -/
def demoOps : List Op :=
  [.push "http://a/".toList none, .push "http://b/".toList none, .push "http://c/".toList none,
   .goTo 0, .push "http://d/".toList none, .goTo 2]

/-- No sequence of calls panics (every index used is in bounds, the parent walk ends), and a
snapshot can always be taken. -/
theorem C23_no_panic (ops : List Op) :
    ∃ h s, run init ops = some h ∧ snapshot h = some s := by
  obtain ⟨h, hr⟩ := run_isSome inv_init ops
  have hi := inv_run inv_init hr
  obtain ⟨f, hf⟩ := forwardTargets_isSome hi
  obtain ⟨r, hr1, _⟩ := summaries_eq (es := h.entries) (List.range h.entries.length) (by simp)
  obtain ⟨r2, hr2, _⟩ := summaries_eq (es := h.entries) f (by
    intro i him
    obtain ⟨c, e, _, he, _⟩ := (mem_forwardTargets hi hf i).mp him
    exact (List.getElem?_eq_some_iff.mp he).1)
  have hs : ∃ s, snapshot h = some s := by
    simp only [snapshot, canGoBack, backTarget_eq hi, hf, hr1, hr2, Option.map_some]
    exact ⟨_, rfl⟩
  obtain ⟨s, hs⟩ := hs
  exact ⟨h, s, hr, hs⟩

/-- Whatever calls follow, an entry once visited stays reachable under its id with the same
predecessor, the ways forward from it stay, and the page it shows changes only through calls that
rewrite the current entry. -/
theorem C23_entries_persist (h h' : Hist) (ops : List Op) (hr : Reachable h)
    (hrun : run h ops = some h') (id : Nat) (e : Entry) (he : EntryAt h id e) :
    ∃ e', EntryAt h' id e' ∧ e'.parent = e.parent ∧ (∀ c ∈ e.children, c ∈ e'.children) ∧
      ((∀ o ∈ ops, o.rewrites = false) → SamePage e' e) := by
  have hi := inv_reachable hr
  clear hr
  induction ops generalizing h e with
  | nil =>
    simp [run] at hrun; subst hrun
    exact ⟨e, he, rfl, fun _ h => h, fun _ => ⟨rfl, rfl, rfl, rfl⟩⟩
  | cons o ops ih =>
    simp only [run] at hrun
    cases hs : step h o with
    | none => rw [hs] at hrun; simp at hrun
    | some h1 =>
      rw [hs] at hrun
      obtain ⟨e1, h11, h12, h13, h14, h15⟩ := step_entry hi hs he
      obtain ⟨e2, h21, h22, h23, h24⟩ := ih h1 hrun e1 h11 (inv_step hi hs)
      refine ⟨e2, h21, by rw [h22, h12], fun c hc => h23 c (h13 c hc), ?_⟩
      intro hno
      obtain ⟨a1, a2, a3, a4⟩ := h24 (fun o ho => hno o (by simp [ho]))
      obtain ⟨b1, b2, b3⟩ := h15 (.inl (hno o (by simp)))
      exact ⟨by rw [a1, b1], by rw [a2, b2], by rw [a3, b3], by rw [a4, h14]⟩

/-- One call never touches the page of an entry that is not the current one. -/
theorem C23_other_pages_untouched (h h' : Hist) (o : Op) (hr : Reachable h)
    (hs : step h o = some h') (id : Nat) (e : Entry) (he : EntryAt h id e)
    (hne : h.current ≠ some id) : ∃ e', EntryAt h' id e' ∧ SamePage e' e := by
  obtain ⟨e1, h1, _, _, h4, h5⟩ := step_entry (inv_reachable hr) hs he
  obtain ⟨a, b, c⟩ := h5 (.inr hne)
  exact ⟨e1, h1, a, b, c, h4⟩

/-- A navigation records the page under a fresh id, with the entry that was current as its
predecessor, and moves there. -/
theorem C23_visit_recorded (h h' : Hist) (u : Str) (t : Option Str) (id : Nat) (hr : Reachable h)
    (hp : push h u t = some (h', id)) :
    (∀ e, ¬ EntryAt h id e) ∧ h'.current = some id ∧
    ∃ e, EntryAt h' id e ∧ e.url = u ∧ e.title = t ∧ e.parent = h.current := by
  obtain ⟨rfl, h1, _, h3, _⟩ := push_spec hp (inv_reachable hr).curLt
  refine ⟨?_, h1, _, h3, rfl, rfl, rfl⟩
  intro e he
  have := (List.getElem?_eq_some_iff.mp he).1
  omega

/-- A snapshot lists every page ever visited, one line per visit, numbered in order of visit, each
with its predecessor; its forward list names exactly the entries whose predecessor is the current
entry, each once. -/
theorem C23_snapshot (ops : List Op) (h : Hist) (s : Snapshot) (hr : run init ops = some h)
    (hs : snapshot h = some s) :
    s.current = h.current ∧
    (s.canGoBack = true ↔ ∃ c e p, h.current = some c ∧ EntryAt h c e ∧ e.parent = some p) ∧
    s.entries.length = (ops.map Op.visits).sum ∧
    (∀ (i : Nat) (e : Entry), EntryAt h i e → s.entries[i]? = some ⟨i, e.url, e.title, e.parent⟩) ∧
    (s.forward.map Summary.id).Nodup ∧
    (∀ i, i ∈ s.forward.map Summary.id ↔
      ∃ c e, h.current = some c ∧ EntryAt h i e ∧ e.parent = some c) := by
  have hi := inv_run inv_init hr
  obtain ⟨f, hf⟩ := forwardTargets_isSome hi
  obtain ⟨r, hr1, hr2, hr3⟩ := summaries_eq (es := h.entries) (List.range h.entries.length) (by simp)
  obtain ⟨q, hq1, hq2, hq3⟩ := summaries_eq (es := h.entries) f (by
    intro i him
    obtain ⟨c, e, _, he, _⟩ := (mem_forwardTargets hi hf i).mp him
    exact (List.getElem?_eq_some_iff.mp he).1)
  simp only [snapshot, canGoBack, backTarget_eq hi, hf, hr1, hq1, Option.map_some] at hs
  cases hs
  have hids : q.map Summary.id = f := by
    apply List.ext_getElem?
    intro k
    by_cases hk : k < f.length
    · obtain ⟨e, _, h2⟩ := hq3 k f[k] (List.getElem?_eq_getElem hk)
      rw [List.getElem?_map, h2, List.getElem?_eq_getElem hk]; rfl
    · rw [List.getElem?_eq_none (by simp; omega), List.getElem?_eq_none (by omega)]
  refine ⟨rfl, ?_, ?_, ?_, ?_, ?_⟩
  · cases hc : h.current with
    | none => simp
    | some c =>
      obtain ⟨e, he⟩ := current_entry hi hc
      simp [he, Option.isSome_iff_exists, EntryAt]
  · simp only
    rw [hr2, List.length_range, run_length inv_init hr]; simp [init]
  · intro i e he
    have hlt := (List.getElem?_eq_some_iff.mp he).1
    obtain ⟨e', h1, h2⟩ := hr3 i i (by simp [hlt])
    rw [EntryAt, h1] at he; cases he
    exact h2
  · simp only [hids]
    cases hc : h.current with
    | none => simp [forwardTargets, hc] at hf; subst hf; simp
    | some c =>
      obtain ⟨e, he⟩ := current_entry hi hc
      rw [forwardTargets_eq hi hc he] at hf; simp at hf
      rw [← hf]
      exact (preferFirst_perm _ _).nodup_iff.mpr (hi.nodup c e he)
  · intro i
    simp only [hids]
    exact mem_forwardTargets hi hf i

/-- Any entry ever visited can be jumped to; an id never handed out is refused without effect. -/
theorem C23_jump (h : Hist) (hr : Reachable h) (id : Nat) :
    (∀ e, EntryAt h id e → ∃ h', goTo h id = some (h', some id) ∧ h'.current = some id) ∧
    ((∀ e, ¬ EntryAt h id e) → goTo h id = some (h, none)) := by
  have hi := inv_reachable hr
  obtain ⟨⟨h', r⟩, hg⟩ := goTo_isSome hi id
  obtain ⟨h1, h2⟩ := goTo_spec hi hg
  constructor
  · intro e he
    cases r with
    | none => have := (h1 rfl).2; simp [EntryAt] at he; rw [he] at this; cases this
    | some k =>
      obtain ⟨rfl, _, es, _, _, rfl⟩ := h2 k rfl
      exact ⟨_, hg, rfl⟩
  · intro hno
    cases r with
    | none => rw [hg, (h1 rfl).1]
    | some k =>
      obtain ⟨rfl, e, _, he, _⟩ := h2 k rfl
      exact absurd he (hno e)

example : ∃ h, run init demoOps = some h ∧ h.current = some 2 ∧ h.entries.length = 4 ∧
    (h.entries.map (·.parent)) = [none, some 0, some 1, some 0] := by
  refine ⟨_, rfl, ?_⟩; decide

/-! ## C24 -/

/-- Going back right after arriving somewhere — by a navigation, forward, or a jump — and then
forward without choosing returns to the entry that was left, from every reachable history. -/
theorem C24_back_forward_partial (h h1 h2 : Hist) (id back : Nat) (hr : Reachable h)
    (harr : (∃ u t, push h u t = some (h1, id)) ∨ (∃ x, goForward h x = some (h1, some id)) ∨
      (∃ i, goTo h i = some (h1, some id)))
    (hb : goBack h1 = some (h2, some back)) :
    ∃ h3, goForward h2 none = some (h3, some id) ∧ h3.current = some id := by
  have hi := inv_reachable hr
  rcases harr with ⟨u, t, hp⟩ | ⟨x, hf⟩ | ⟨i, hg⟩
  · obtain ⟨h4, h5⟩ := prefAt_push hi hp
    exact back_forward_of_pref (inv_push hi hp) h5 h4 hb
  · obtain ⟨h4, h5⟩ := prefAt_goForward hi hf
    exact back_forward_of_pref (inv_goForward hi hf) h5 h4 hb
  · obtain ⟨h4, h5⟩ := prefAt_goTo hi hg
    exact back_forward_of_pref (inv_goTo hi hg) h5 h4 hb

/-- In a history made without jumps, going back — after any number of earlier backs — and then
forward returns to the entry that was left. -/
theorem C24_back_forward_nojump_partial (ops : List Op) (h h' : Hist) (left back : Nat)
    (hno : ∀ o ∈ ops, o.isJump = false) (hr : run init ops = some h)
    (hc : h.current = some left) (hb : goBack h = some (h', some back)) :
    ∃ h'', goForward h' none = some (h'', some left) ∧ h''.current = some left := by
  have hi := inv_run inv_init hr
  have hpp : PathPref h := pathPref_run inv_init (by intro c a hc; simp [init] at hc) hno hr
  exact back_forward_of_pref hi hc (hpp left left hc (.refl _)) hb

/-- The full claim fails: after a jump into another branch, a second back followed by forward does
not return to the entry that was left but to a sibling of it. -/
theorem C24_back_forward_violated :
    ∃ ops h h' h'' left back other, run init ops = some h ∧ h.current = some left ∧
      goBack h = some (h', some back) ∧ goForward h' none = some (h'', some other) ∧
      other ≠ left :=
  ⟨demoOps ++ [.goBack], _, _, _, 1, 0, 3, rfl, rfl, rfl, rfl, by decide⟩

/-- Back goes exactly to the predecessor, and is refused without effect only at the first entry
(or in an empty history). -/
theorem C24_back_is_predecessor (h : Hist) (hr : Reachable h) :
    (∀ c e, h.current = some c → EntryAt h c e →
      (c ≠ 0 → ∃ p h', e.parent = some p ∧ goBack h = some (h', some p) ∧ h'.current = some p ∧
        h'.entries = h.entries) ∧
      (c = 0 → goBack h = some (h, none))) ∧
    (h.current = none → goBack h = some (h, none)) := by
  have hi := inv_reachable hr
  refine ⟨?_, ?_⟩
  · intro c e hc he
    have hb := goBack_eq hi hc he
    refine ⟨?_, ?_⟩
    · intro hne
      cases hp : e.parent with
      | none => exact absurd ((hi.parNone c e he).mp hp) hne
      | some p => rw [hp] at hb; exact ⟨p, _, rfl, hb, rfl, rfl⟩
    · intro h0
      rw [hb, (hi.parNone c e he).mpr h0]
  · intro hn
    simp [goBack, backTarget_eq hi, hn]

/-- Going back repeatedly reaches the first entry after finitely many steps, at most as many as
there are entries before the current one, without changing any entry. -/
theorem C24_back_reaches_first (h : Hist) (c : Nat) (hr : Reachable h) (hc : h.current = some c) :
    ∃ n h', n ≤ c ∧ backs h n = some h' ∧ h'.current = some 0 ∧ h'.entries = h.entries ∧
      goBack h' = some (h', none) := by
  have hi := inv_reachable hr
  obtain ⟨n, h', h1, h2, h3, h4⟩ := backs_to_root hi c hc
  refine ⟨n, h', h1, h2, h3, h4, ?_⟩
  have hlt := hi.curLt c hc
  have h0 : 0 < h.entries.length := by omega
  have he := List.getElem?_eq_getElem h0
  have hp := (hi.parNone 0 _ he).mpr rfl
  have hbt : backTarget h' = some none := by
    simp only [backTarget, h3, h4, he, hp]
    cases h.entries.length <;> rfl
  simp [goBack, hbt]

/-- Non-vacuity: the demo history reaches a state from which two backs succeed. -/
example : ∃ h h2, run init demoOps = some h ∧ h.current = some 2 ∧ backs h 2 = some h2 ∧
    h2.current = some 0 := ⟨_, _, rfl, rfl, rfl, rfl⟩

example : ∃ h h1 h2, Reachable h ∧ goTo h 2 = some (h1, some 2) ∧ goBack h1 = some (h2, some 1) :=
  ⟨_, _, _, ⟨demoOps, rfl⟩, rfl, rfl⟩

end Verif.History
