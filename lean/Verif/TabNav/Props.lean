import Verif.TabNav.Lemmas3
set_option linter.unusedVariables false

/-! # C78–C80 and C82: navigation -/
namespace Verif.TabNav

/-- A world for the examples: every text is the address of a web page, and the fragment `f` of any document is at 900. -/
def demo : Env where
  parse s := some ⟨['h', 't', 't', 'p'], s, none⟩
  print u := u.rest
  fragY _ _ := some 900

def pageA : Url := ⟨['h', 't', 't', 'p'], ['a'], none⟩
def pageB : Url := ⟨['h', 't', 't', 'p'], ['b'], none⟩
def pageC : Url := ⟨['h', 't', 't', 'p'], ['c'], none⟩

/-- The answer of navigation `n` is this page. -/
def loads (n : Nat) (u : Url) (title : Option Str) : List Step := [.respond n, .finish n (.result (.ok u title))]

/-- the user asks for a page -/
def asks (s : Str) : Step := .cmd (.navigate s) true

/-! ## C78 -/

/-- No schedule of commands, answers, frames and network events makes the worker panic. -/
theorem C78_no_panic (env : Env) (title : Str) (xs : List Step) : ∃ t, run env (Tab.new title) xs = some t := by
  obtain ⟨t, h, _⟩ := run_good env xs (t := Tab.new title) ⟨[], rfl⟩
  exact ⟨t, h⟩

/-- The session history of a tab is one that calls of the history API lead to. -/
theorem C78_history (env : Env) (title : Str) (t : Tab) (h : Reachable env title t) : History.Reachable t.hist :=
  hist_reach h

/-- The document shown is one its navigation loaded, and is never replaced by that of a navigation started earlier. -/
theorem C78_never_older (env : Env) (title : Str) (t t' : Tab) (x : Step) (m : Nat) (h : Reachable env title t)
    (hs : step env t x = some t') (hd : t.doc = some m) :
    (∃ u ti, answer t m = some (.sent (.ok u ti))) ∧ ∃ m', t'.doc = some m' ∧ m ≤ m' := by
  have i := inv_reach h
  obtain ⟨h1, u, ti, h2⟩ := doc_handled i hd
  refine ⟨⟨u, ti, by rw [answer_eq]; exact h2⟩, ?_⟩
  rcases doc_step i hs with h3 | ⟨n, _, _, hp, _, h3⟩
  · exact ⟨m, by rw [h3, hd], le_refl m⟩
  · exact ⟨n, h3, Nat.le_of_lt ((i.rx n hp).2 m h1)⟩

/-- The last navigation the user started decides what the tab shows: once nothing is in flight any more, its answer has
been handled, and the tab shows its document and address, or that it failed. -/
theorem C78_last_wins (env : Env) (title : Str) (t t1 t2 : Tab) (c : Cmd) (ok : Bool) (n : Nat) (q : List Step)
    (h0 : Reachable env title t) (h1 : step env t (.cmd c ok) = some t1) (hs : Starts t t1 n)
    (h2 : run env t1 q = some t2) (hq : Waiting q) (hi : Idle t2) :
    ∃ a, answer t2 n = some a ∧ Shows t2 n a := by
  cases stage_run (starts_stage h1 hs) h2 hq with
  | waits h hl => exact absurd hi.1 h
  | flies h hl => rw [hi.1] at h; cases h
  | over h hl a ha hsh => exact ⟨a, by rw [answer_eq]; exact ha, hsh⟩

/-- Handling the answers does lead there: when every task has ended, two rounds of the loop leave nothing in flight. -/
theorem C78_progress (env : Env) (title : Str) (t : Tab) (h : Reachable env title t)
    (ha : ∀ n, answer t n ≠ some .empty) :
    ∃ t2, run env t [.deliver, .deliver] = some t2 ∧ Idle t2 := by
  obtain ⟨t2, h2, _⟩ := run_good env [.deliver, .deliver] (hist_reach h)
  refine ⟨t2, h2, ?_⟩
  have i := inv_reach h
  obtain ⟨t1, e1, h3⟩ := run_cons h2
  obtain ⟨t2', e2, h4⟩ := run_cons h3
  cases h4
  have one : ∀ {s s' : Tab}, Inv s → (∀ n, answer s n ≠ some .empty) → step env s .deliver = some s' →
      (∀ n, answer s' n ≠ some .empty) ∧ ((∀ n, s.load ≠ some (n, true)) → Idle s') ∧
      ∀ n, s'.load ≠ some (n, true) := by
    intro s s' i ha e
    simp only [step, Option.map_eq_some_iff] at e
    obtain ⟨s1, e, rfl⟩ := e
    have hch : chans s1 = chans s := by unfold chans; rw [deliver_tasks e]
    refine ⟨?_, ?_⟩
    · intro n
      have := ha n
      rw [answer_eq] at this ⊢
      rw [chans_sync, hch]
      exact this
    · have key : s1.pendingRx = none ∧ s1.load = s.load := by
        cases deliver_delivered e with
        | none he hw =>
          subst he
          refine ⟨?_, rfl⟩
          cases hp : s1.pendingRx with
          | none => rfl
          | some n =>
            rcases hw n hp with h5 | h5
            · exact absurd (by rw [answer_eq]; exact h5) (ha n)
            · have := (i.rx n hp).1
              rw [List.getElem?_eq_none_iff, chans_length] at h5
              omega
        | dropped m hm hmc he => subst he; exact ⟨rfl, rfl⟩
        | sent m r hm hmc ha => exact ⟨ha.pendingRx, ha.load⟩
      constructor
      · intro hl
        rw [sync_idle key.1 (by rw [key.2]; exact hl)]
        exact ⟨key.1, by rw [key.2]; exact hl⟩
      · intro n hn
        unfold Tab.sync at hn
        split at hn
        · simp at hn
        · rename_i h6
          exact h6 n key.1 hn
  obtain ⟨a1, _, a3⟩ := one i ha e1
  exact (one (inv_step i e1) a1 e2).2.1 a3

/-- The user asks for A, then B, then C before anything has arrived; all three answer, in the opposite order; C is shown. -/
example : ∃ t t1 t2, run demo (Tab.new []) [asks ['a'], asks ['b']] = some t ∧
    step demo t (asks ['c']) = some t1 ∧ Starts t t1 2 ∧
    run demo t1 (loads 2 pageC none ++ loads 1 pageB none ++ loads 0 pageA none ++ [.deliver, .deliver]) = some t2 ∧
    Idle t2 ∧ t2.doc = some 2 ∧ t2.cur = some pageC := by
  refine ⟨_, _, _, rfl, rfl, ⟨rfl, rfl⟩, rfl, ⟨rfl, ?_⟩, rfl, rfl⟩
  intro n h
  cases h

/-! ## C79 -/

/-- A navigation that has no response when the user goes elsewhere, and does not get one afterwards (its fetch is cancelled),
never shows its document and is never reported as finished, whatever else happens. -/
theorem C79_superseded_partial (env : Env) (title : Str) (t t2 : Tab) (q : List Step) (n : Nat) (k : Task)
    (h0 : Reachable env title t) (hk : t.tasks[n]? = some k) (hc : k.chan = .empty) (hr : k.responded = false)
    (h : run env t q = some t2) (hq : Step.respond n ∉ q) :
    t2.doc ≠ some n ∧ (Mark.done, n) ∉ numbered t2.events ∧ ∀ p ∈ pagesShown t2, ∃ m, m ≠ n ∧ webPage t2 m = some p := by
  have hn : NoResponse n t := (task_iff t n).2 ⟨k, hk, Or.inl ⟨hc, hr⟩⟩
  have hn2 := noResponse_run hn h hq
  have i2 := inv_run (inv_reach h0) h
  have hd : (Mark.done, n) ∉ numbered t2.events := by
    intro hm
    obtain ⟨c, h1, h2, h3, _⟩ := i2.truth _ _ hm (by simp)
    rcases hn2 with ⟨a, _⟩ | a
    · rw [a] at h1; cases h1; exact h2 rfl
    · rw [a] at h1; cases h1
      rcases h3 with h3 | ⟨_, _, h3⟩ <;> cases h3
  refine ⟨?_, hd, ?_⟩
  · intro hd
    obtain ⟨_, u, ti, h1⟩ := doc_handled i2 hd
    rcases hn2 with ⟨a, _⟩ | a <;> rw [a] at h1 <;> cases h1
  · intro p hp
    obtain ⟨⟨m, j⟩, hm, hw⟩ := List.mem_filterMap.1 hp
    split at hw
    · rename_i e
      simp only at e
      subst e
      refine ⟨j, ?_, hw⟩
      rintro rfl
      exact hd hm
    · cases hw

/-- An answer that is an error leaves the document, the address, the title, the history and the visits as they are. -/
theorem C79_failure_keeps_page (env : Env) (t t' : Tab) (n : Nat) (hp : t.pendingRx = some n)
    (ha : answer t n = some (.sent .err)) (hs : step env t .deliver = some t') :
    t'.doc = t.doc ∧ t'.cur = t.cur ∧ t'.title = t.title ∧ t'.hist = t.hist ∧ t'.visits = t.visits := by
  unfold answer at ha
  obtain ⟨k, hk, hc⟩ := Option.map_eq_some_iff.1 ha
  have : deliver env t = onResult env { t with pendingRx := none, handled := t.handled ++ [n] } n .err := by
    unfold deliver
    simp only [hp, hk, hc]
  simp only [step, this, onResult, Option.map_some, Option.some.injEq] at hs
  subst hs
  unfold Tab.sync
  split <;> exact ⟨rfl, rfl, rfl, rfl, rfl⟩

/-- A is asked for and its document has come in when the user asks for B. Then A is shown all the same, goes into the history
and the visited pages, and the tab stops loading although B is on its way. B fails, and the tab keeps showing A. -/
theorem C79_superseded_violated :
    ∃ t t', run demo (Tab.new []) ([asks ['a']] ++ loads 0 pageA none ++ [asks ['b'], .deliver]) = some t ∧
      t.doc = some 0 ∧ t.cur = some pageA ∧ t.visits = [(pageA, [])] ∧ t.hist.entries.length = 1 ∧
      t.isLoading = false ∧ answer t 1 = some .empty ∧
      run demo t [.abort 1, .deliver] = some t' ∧ Idle t' ∧ t'.doc = some 0 ∧ t'.cur = some pageA := by
  refine ⟨_, _, rfl, rfl, rfl, rfl, rfl, rfl, rfl, rfl, ⟨rfl, ?_⟩, rfl, rfl⟩
  intro n h
  cases h

example : ∃ t k t2, run demo (Tab.new []) [asks ['a'], asks ['b']] = some t ∧ t.tasks[0]? = some k ∧
    k.chan = .empty ∧ k.responded = false ∧ k.cancelled = true ∧
    run demo t ([.abort 0] ++ loads 1 pageB none ++ [.deliver, .deliver]) = some t2 ∧ t2.doc = some 1 :=
  ⟨_, _, _, rfl, rfl, rfl, rfl, rfl, rfl, rfl⟩

/-! ## C80 -/

/-- Navigations are announced once each, in the order they start. -/
theorem C80_started (env : Env) (title : Str) (t : Tab) (h : Reachable env title t) :
    ((numbered t.events).filter fun p => decide (p.1 = Mark.start)).map (·.2) = List.range t.tasks.length :=
  (inv_reach h).starts

/-- No navigation is reported as ended twice, and none that was not announced. -/
theorem C80_outcome_once (env : Env) (title : Str) (t : Tab) (h : Reachable env title t) :
    (((numbered t.events).filter fun p => decide (p.1 ≠ Mark.start)).map (·.2)).Nodup ∧
    ∀ n, Ended t n → (Mark.start, n) ∈ numbered t.events := by
  have i := inv_reach h
  refine ⟨i.once, ?_⟩
  rintro n ⟨m, _, hm⟩
  have hl := number_lt i.toInvU hm
  have : n ∈ ((numbered t.events).filter fun p => decide (p.1 = Mark.start)).map (·.2) := by
    rw [i.starts]; exact List.mem_range.2 hl
  obtain ⟨⟨m', n'⟩, h1, rfl⟩ := List.mem_map.1 this
  obtain ⟨h2, h3⟩ := List.mem_filter.1 h1
  simp only [decide_eq_true_eq] at h3
  subst h3
  exact h2

/-- A report tells what happened: a load reported as finished did load, one reported as failed got an error or was
blocked, one reported as cancelled became a download. -/
theorem C80_outcome_true (env : Env) (title : Str) (t : Tab) (n : Nat) (h : Reachable env title t) :
    ((Mark.done, n) ∈ numbered t.events → answer t n = some .dropped ∨ ∃ u ti, answer t n = some (.sent (.ok u ti))) ∧
    ((Mark.failed, n) ∈ numbered t.events → answer t n = some .dropped ∨ answer t n = some (.sent .err)) ∧
    ((Mark.cancelled, n) ∈ numbered t.events → ∃ u, answer t n = some (.sent (.download u))) := by
  have i := inv_reach h
  refine ⟨?_, ?_, ?_⟩ <;> intro hm <;> obtain ⟨c, h1, h2, h3, _⟩ := i.truth _ _ hm (by simp) <;>
    rw [answer_eq, h1]
  · rcases h3 with h3 | ⟨u, ti, h3⟩
    · exact Or.inl (by rw [h3])
    · exact Or.inr ⟨u, ti, by rw [h3]⟩
  · rcases h3 with h3 | h3
    · exact Or.inl (by rw [h3])
    · exact Or.inr (by rw [h3])
  · obtain ⟨u, h3⟩ := h3
    exact ⟨u, by rw [h3]⟩

/-- As long as the user starts nothing while a navigation is in flight and every task answers: the tab is loading exactly
while a navigation is in flight, and all others have been reported as ended. -/
theorem C80_loading_partial (env : Env) (title : Str) (t : Tab) (xs : List Step)
    (ho : Orderly env (Tab.new title) xs) (h : run env (Tab.new title) xs = some t) :
    (t.isLoading = true ↔ ¬ Idle t) ∧ (Idle t → ∀ n, n < t.tasks.length → Ended t n) := by
  have i := tidy_run (tidy_new title) ho h
  refine ⟨?_, ?_⟩
  · rw [i.loading]
    constructor
    · intro h hi; exact h hi.1
    · intro h hp; exact h ⟨hp, i.only⟩
  · intro hi n hn
    rcases i.reported n hn with h1 | h1
    · exact h1
    · rw [hi.1] at h1; cases h1

example : Orderly demo (Tab.new []) ([asks ['a']] ++ loads 0 pageA none ++ [.deliver, asks ['b'], .abort 1, .deliver]) := by
  refine .cons rfl ?_ (by simp [asks]) (by simp [asks]) (.cons rfl (by simp) (by simp) (by simp) (.cons rfl (by simp) (by simp)
    (by simp) (.cons rfl (by simp) (by simp) (by simp) (.cons rfl ?_ (by simp [asks]) (by simp [asks]) (.cons rfl (by simp)
    (by simp) (by simp) (.cons rfl (by simp) (by simp) (by simp) (.nil _)))))))
  · intro c ok _
    exact Or.inl ⟨rfl, by intro n h; cases h⟩
  · intro c ok _
    exact Or.inl ⟨rfl, by intro n h; cases h⟩

/-- An overtaken navigation fails: the tab stops loading although B is on its way, and the failure is reported with
B's address. -/
theorem C80_stale_failure_violated :
    ∃ t, run demo (Tab.new []) [asks ['a'], asks ['b'], .abort 0, .deliver] = some t ∧
      answer t 1 = some .empty ∧ t.isLoading = false ∧ t.isError = true ∧
      t.events.getLast? = some (.failed (some 0) pageB) :=
  ⟨_, rfl, rfl, rfl, rfl, rfl⟩

/-- A blocked navigation: it is reported as failed, and the tab goes on loading for ever. -/
theorem C80_blocked_violated :
    ∃ t, run demo (Tab.new []) [asks ['a'], .respond 0, .finish 0 (.blocked pageA), .deliver] = some t ∧
      Ended t 0 ∧ Idle t ∧
      ∀ q t', Waiting q → run demo t q = some t' → t'.isLoading = true := by
  refine ⟨_, rfl, ⟨.failed, by decide, by decide⟩, ⟨rfl, ?_⟩, ?_⟩
  · intro n h; cases h
  · intro q t' hq h
    have := (idle_run (⟨rfl, by intro n h; cases h⟩) h hq).2.1
    rw [this]
    rfl

/-- Three navigations in a row: the second is never reported as ended, although all of them have answered and nothing is in
flight. -/
theorem C80_lost_outcome_violated :
    ∃ t, run demo (Tab.new []) ([asks ['a'], asks ['b'], asks ['c']] ++ loads 0 pageA none ++ loads 1 pageB none ++
        loads 2 pageC none ++ [.deliver, .deliver]) = some t ∧ Idle t ∧ ¬ Ended t 1 := by
  refine ⟨_, rfl, ⟨rfl, ?_⟩, ?_⟩
  · intro n h; cases h
  · rintro ⟨m, h1, h2⟩
    have h3 : (m, 1) ∈ [(Mark.start, 0), (Mark.start, 1), (Mark.start, 2), (Mark.done, 0), (Mark.done, 2)] := h2
    simp at h3
    exact h1 h3

/-- A site whose storage cannot be opened: the one failure is reported twice. -/
theorem C80_bind_failure_violated :
    ∃ t, run demo (Tab.new []) [.cmd (.navigate ['a']) false] = some t ∧
      t.events = [.failed none pageA, .failed none pageA] :=
  ⟨_, rfl, rfl⟩

/-! ## C82 -/

/-- The visited pages are the web pages reported as loaded, in that order, each under its title if it has one. -/
theorem C82_visits_partial (env : Env) (title : Str) (t : Tab) (h : Reachable env title t) :
    List.Forall₂ VisitOf t.visits (pagesShown t) := by
  obtain ⟨xs, hx⟩ := h
  exact vis_run (inv_new title) (by simp [Vis, Tab.new, pagesShown, numbered]) hx

/-- A page without a title is recorded, and shown, under the title of the page before it. -/
theorem C82_untitled_violated :
    ∃ t, run demo (Tab.new []) ([asks ['a']] ++ loads 0 pageA (some ['M', 'a', 'i', 'l']) ++ [.deliver, asks ['b']] ++
        loads 1 pageB none ++ [.deliver]) = some t ∧
      t.visits = [(pageA, ['M', 'a', 'i', 'l']), (pageB, ['M', 'a', 'i', 'l'])] ∧ t.title = ['M', 'a', 'i', 'l'] :=
  ⟨_, rfl, rfl, rfl⟩

example : ∃ t, run demo (Tab.new []) ([asks ['a']] ++ loads 0 pageA (some ['A']) ++ [.deliver, asks ['b']] ++
    loads 1 pageB (some ['B']) ++ [.deliver]) = some t ∧
    pagesShown t = [(pageA, some ['A']), (pageB, some ['B'])] ∧ t.visits = [(pageA, ['A']), (pageB, ['B'])] :=
  ⟨_, rfl, rfl, rfl⟩

end Verif.TabNav
