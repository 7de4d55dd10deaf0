import Mathlib.Data.List.Nodup
import Verif.TabNav.Lemmas
set_option linter.unusedVariables false

/-! No panic, and the invariant of the schedules. -/
namespace Verif.TabNav
open Verif.History (Hist)

/-! ## No panic -/

theorem hist_op {h h' : Hist} (hr : History.Reachable h) (o : History.Op) (hs : History.step h o = some h') :
    History.Reachable h' :=
  History.reachable_run (ops := [o]) hr (by simp [History.run, hs])

theorem hist_total {h : Hist} (hr : History.Reachable h) (o : History.Op) :
    ∃ h', History.step h o = some h' ∧ History.Reachable h' := by
  obtain ⟨h', hs⟩ := History.step_isSome (History.inv_reachable hr) o
  exact ⟨h', hs, hist_op hr o hs⟩

theorem snapshot_total {h : Hist} (hr : History.Reachable h) : ∃ s, History.snapshot h = some s := by
  obtain ⟨ops, ho⟩ := hr
  obtain ⟨h', s, h1, h2⟩ := History.C23_no_panic ops
  rw [ho] at h1
  cases h1
  exact ⟨s, h2⟩

theorem setScroll_total {h : Hist} (hr : History.Reachable h) (x y : Int) :
    ∃ h', History.setCurrentScroll h x y = some h' ∧ History.Reachable h' := hist_total hr (.setScroll x y)

theorem push_total {h : Hist} (hr : History.Reachable h) (u : Str) (ti : Option Str) :
    ∃ r, History.push h u ti = some r ∧ History.Reachable r.1 := by
  obtain ⟨r, hp⟩ := History.push_isSome (History.inv_reachable hr) u ti
  exact ⟨r, hp, hist_op hr (.push u ti) (by simp [History.step, hp])⟩

/-- A step that succeeds and leaves a history that API calls lead to. -/
def Good (o : Option Tab) : Prop := ∃ t, o = some t ∧ History.Reachable t.hist

theorem emitHistory_good {t : Tab} (hr : History.Reachable t.hist) : Good t.emitHistory := by
  obtain ⟨s, hs⟩ := snapshot_total hr
  refine ⟨t.emit (.historyChanged s), ?_, hr⟩
  simp only [Tab.emitHistory, hs, Option.bind_eq_bind, Option.bind_some]

theorem cancelActive_hist (t : Tab) : t.cancelActive.hist = t.hist := by
  unfold Tab.cancelActive; split <;> rfl

theorem leave_good {t : Tab} (hr : History.Reachable t.hist) (b : Bool) : Good (t.leave b) := by
  have key : ∀ h, History.Reachable h →
      Good ((some h).bind fun h => some ({ t with hist := h, pendingScroll := none } : Tab).resetScroll.cancelActive) := by
    intro h hh
    refine ⟨_, rfl, ?_⟩
    rw [cancelActive_hist]
    exact hh
  unfold Tab.leave
  cases b
  · exact key _ hr
  · obtain ⟨h, h1, h2⟩ := setScroll_total hr t.scroll.1 t.scroll.2
    have e : (if true = true then History.setCurrentScroll t.hist t.scroll.1 t.scroll.2 else some t.hist) = some h := by
      rw [if_pos rfl, h1]
    rw [e]
    exact key h h2

theorem startIfBound_hist (t : Tab) (url : Url) (i : Intent) (f ok : Bool) :
    (t.startIfBound url i f ok).hist = t.hist := by
  unfold Tab.startIfBound; split <;> rfl

theorem sameHist_good (env : Env) {t : Tab} (hr : History.Reachable t.hist) (url : Url) (i : Intent) :
    ∃ h, sameHist env t url i = some h ∧ History.Reachable h := by
  cases i with
  | push =>
    obtain ⟨h, h1, h2⟩ := setScroll_total hr t.scroll.1 t.scroll.2
    obtain ⟨r, h3, h4⟩ := push_total h2 (env.print url) (some t.title)
    exact ⟨r.1, by simp [sameHist, h1, h3], h4⟩
  | reload => exact ⟨t.hist, rfl, hr⟩
  | traverse e => exact ⟨t.hist, rfl, hr⟩

theorem navigateSame_good (env : Env) {t : Tab} (hr : History.Reachable t.hist) (url : Url) (i : Intent) :
    Good (navigateSame env t url i) := by
  obtain ⟨h, h1, h2⟩ := sameHist_good env
    (t := { t.emit (.started t.tasks.length url) with tasks := t.tasks ++ [⟨true, false, .dropped⟩] }) hr url i
  simp only [navigateSame, Option.bind_eq_bind]
  rw [h1, Option.bind_some]
  apply emitHistory_good
  split <;> exact h2

theorem navigateTo_good (env : Env) {t : Tab} (hr : History.Reachable t.hist) (s : Str) (i : Intent) (ok : Bool) :
    Good (navigateTo env t s i ok) := by
  unfold navigateTo
  split
  · exact ⟨_, rfl, hr⟩
  · split
    · exact navigateSame_good env hr _ _
    · obtain ⟨t1, h1, h2⟩ := leave_good hr (!i.isTraverse)
      rw [h1, Option.bind_eq_bind, Option.bind_some]
      exact ⟨_, rfl, by rw [startIfBound_hist]; exact h2⟩

theorem traverse_good (env : Env) {t : Tab} (hr : History.Reachable t.hist) (e : Nat) (ok : Bool) :
    Good (traverse env t e ok) := by
  unfold traverse
  split
  · exact ⟨_, rfl, hr⟩
  · rename_i x _
    obtain ⟨t1, h1, h2⟩ := navigateTo_good env hr x.url (.traverse e) ok
    rw [h1, Option.bind_eq_bind, Option.bind_some]
    exact emitHistory_good h2

theorem moved_good (env : Env) (t : Tab) (ok : Bool) (r : Hist × Option Nat) (hr : History.Reachable r.1) :
    Good (moved env t ok r) := by
  unfold moved
  split
  · exact ⟨_, rfl, hr⟩
  · exact traverse_good env (t := { t with hist := r.1 }) hr _ _

theorem command_good (env : Env) {t : Tab} (hr : History.Reachable t.hist) (ok : Bool) (c : Cmd) :
    Good (command env t ok c) := by
  cases c with
  | setTitle s => exact ⟨_, rfl, hr⟩
  | navigate s => exact navigateTo_good env hr _ _ _
  | loadHtml base =>
    simp only [command]
    split
    · exact ⟨_, rfl, hr⟩
    · obtain ⟨t1, h1, h2⟩ := leave_good hr true
      rw [h1, Option.bind_eq_bind, Option.bind_some]
      exact ⟨_, rfl, by rw [startIfBound_hist]; exact h2⟩
  | reload => exact navigateTo_good env hr _ _ _
  | goBack =>
    obtain ⟨h, h1, h2⟩ := setScroll_total hr t.scroll.1 t.scroll.2
    obtain ⟨r, h3⟩ := History.goBack_isSome (History.inv_reachable h2)
    have h4 := hist_op h2 .goBack (h' := r.1) (by simp [History.step, h3])
    simp only [command, h1, h3, Option.bind_eq_bind, Option.bind_some]
    exact moved_good env t ok r h4
  | goForward e =>
    obtain ⟨h, h1, h2⟩ := setScroll_total hr t.scroll.1 t.scroll.2
    obtain ⟨r, h3⟩ := History.goForward_isSome (History.inv_reachable h2) e
    have h4 := hist_op h2 (.goForward e) (h' := r.1) (by simp [History.step, h3])
    simp only [command, h1, h3, Option.bind_eq_bind, Option.bind_some]
    exact moved_good env t ok r h4
  | goTo e =>
    simp only [command]
    split
    · exact ⟨_, rfl, hr⟩
    · obtain ⟨h, h1, h2⟩ := setScroll_total hr t.scroll.1 t.scroll.2
      obtain ⟨r, h3⟩ := History.goTo_isSome (History.inv_reachable h2) e
      have h4 := hist_op h2 (.goTo e) (h' := r.1) (by simp [History.step, h3])
      simp only [h1, h3, Option.bind_eq_bind, Option.bind_some]
      exact moved_good env t ok r h4
  | cancel =>
    simp only [command]
    split
    · exact ⟨_, rfl, hr⟩
    · exact ⟨_, rfl, hr⟩

theorem commitHist_good (env : Env) {h : Hist} (hr : History.Reachable h) (url : Url) (ti : Option Str) (i : Intent) :
    ∃ r, commitHist env h url ti i = some r ∧ History.Reachable r.1 := by
  cases i with
  | push =>
    obtain ⟨r, h1, h2⟩ := push_total hr (env.print url) ti
    exact ⟨(r.1, none), by simp [commitHist, h1], h2⟩
  | reload =>
    obtain ⟨h1, a1, b1⟩ := hist_total hr (.replaceUrl (env.print url))
    obtain ⟨h2, a2, b2⟩ := hist_total b1 (.setTitle ti)
    simp only [History.step] at a1 a2
    exact ⟨(h2, _), by simp [commitHist, a1, a2]; rfl, b2⟩
  | traverse e =>
    obtain ⟨h1, a1, b1⟩ := hist_total hr (.replaceUrl (env.print url))
    obtain ⟨h2, a2, b2⟩ := hist_total b1 (.setTitle ti)
    simp only [History.step] at a1 a2
    exact ⟨(h2, _), by simp [commitHist, a1, a2]; rfl, b2⟩

theorem onResult_good (env : Env) {t : Tab} (hr : History.Reachable t.hist) (n : Nat) (r : Result) :
    Good (onResult env t n r) := by
  cases r with
  | ok u ti =>
    obtain ⟨r, h1, h2⟩ := commitHist_good env hr u ti (intentOf t n)
    simp only [onResult, Option.bind_eq_bind]
    rw [h1, Option.bind_some]
    exact emitHistory_good h2
  | err => exact ⟨_, rfl, hr⟩
  | download u => exact ⟨_, rfl, hr⟩

theorem deliver_good (env : Env) {t : Tab} (hr : History.Reachable t.hist) : Good (deliver env t) := by
  unfold deliver
  split
  · exact ⟨_, rfl, hr⟩
  · split
    · exact ⟨_, rfl, hr⟩
    · split
      · exact ⟨_, rfl, hr⟩
      · exact onResult_good env (t := { t with pendingRx := none, handled := t.handled ++ [_] }) hr _ _
      · exact ⟨_, rfl, hr⟩

theorem sync_hist (t : Tab) : t.sync.hist = t.hist := by
  unfold Tab.sync; split <;> rfl

theorem tick_hist (env : Env) (t : Tab) : (tick env t).hist = t.hist := by
  unfold tick
  split
  · split
    · split
      · rfl
      · split <;> rfl
    · rfl
  · rfl

theorem respond_hist (t : Tab) (n : Nat) : (respond t n).hist = t.hist := by
  unfold respond; split
  · rfl
  · split <;> rfl

theorem abort_hist (t : Tab) (n : Nat) : (abort t n).hist = t.hist := by
  unfold abort; split
  · rfl
  · split <;> rfl

theorem finish_hist (t : Tab) (n : Nat) (o : Outcome) : (finish t n o).hist = t.hist := by
  unfold finish; split
  · rfl
  · split
    · rfl
    · split <;> rfl

theorem step_good (env : Env) {t : Tab} (hr : History.Reachable t.hist) (x : Step) : Good (step env t x) := by
  cases x with
  | cmd c ok =>
    obtain ⟨t1, h1, h2⟩ := command_good env hr ok c
    exact ⟨t1.sync, by simp [step, h1], by rw [sync_hist]; exact h2⟩
  | deliver =>
    obtain ⟨t1, h1, h2⟩ := deliver_good env hr
    exact ⟨t1.sync, by simp [step, h1], by rw [sync_hist]; exact h2⟩
  | tick => exact ⟨_, rfl, by rw [tick_hist]; exact hr⟩
  | userScroll x y => exact ⟨_, rfl, hr⟩
  | layout p v => exact ⟨_, rfl, hr⟩
  | respond n => exact ⟨_, rfl, by rw [respond_hist]; exact hr⟩
  | abort n => exact ⟨_, rfl, by rw [abort_hist]; exact hr⟩
  | finish n o => exact ⟨_, rfl, by rw [finish_hist]; exact hr⟩

theorem run_good (env : Env) (xs : List Step) {t : Tab} (hr : History.Reachable t.hist) : Good (run env t xs) := by
  induction xs generalizing t with
  | nil => exact ⟨t, rfl, hr⟩
  | cons x xs ih =>
    obtain ⟨t1, h1, h2⟩ := step_good env hr x
    simp only [run, h1, Option.bind_eq_bind, Option.bind_some]
    exact ih h2

/-! ## The invariant -/

/-- the navigation loaded a document -/
def isOk : Option Chan → Bool
  | some (.sent (.ok _ _)) => true
  | _ => false

/-- what a report of navigation `n` says of its channel -/
def Truthful (m : Mark) (c : Chan) : Prop :=
  match m with
  | .start => True
  | .done => c = .dropped ∨ ∃ u ti, c = .sent (.ok u ti)
  | .failed => c = .dropped ∨ c = .sent .err
  | .cancelled => ∃ u, c = .sent (.download u)

/-- everything but the synchronisation of the loop -/
structure InvU (t : Tab) : Prop where
  sorted : t.handled.Pairwise (· < ·)
  done : ∀ m ∈ t.handled, ∃ c, (chans t)[m]? = some c ∧ c ≠ .empty
  rx : ∀ n, t.pendingRx = some n → n < t.tasks.length ∧ ∀ m ∈ t.handled, m < n
  ld : ∀ n b, t.load = some (n, b) → n < t.tasks.length
  fresh : ∀ n, t.load = some (n, true) → (∀ m ∈ t.handled, m < n) ∧ ∀ p, t.pendingRx = some p → p < n
  starts : ((numbered t.events).filter fun p => decide (p.1 = Mark.start)).map (·.2) = List.range t.tasks.length
  once : ((numbered t.events).filter fun p => decide (p.1 ≠ Mark.start)).map (·.2) |>.Nodup
  truth : ∀ m n, (m, n) ∈ numbered t.events → m ≠ .start →
    ∃ c, (chans t)[n]? = some c ∧ c ≠ .empty ∧ Truthful m c ∧ (n ∈ t.handled ∨ c = .dropped)
  shown : t.doc = (t.handled.filter fun n => isOk (chans t)[n]?).getLast?

structure Inv (t : Tab) : Prop extends InvU t where
  synced : t.pendingRx = none → ∀ n, t.load ≠ some (n, true)

theorem invU_new (title : Str) : InvU (Tab.new title) := by
  constructor <;> simp [Tab.new, numbered]

theorem inv_new (title : Str) : Inv (Tab.new title) := ⟨invU_new title, by simp [Tab.new]⟩

theorem inv_same {t t' : Tab} (h : Same0 t t') (i : Inv t) : Inv t' := by
  have hl : t'.tasks.length = t.tasks.length := by rw [← chans_length, ← chans_length, h.chans]
  refine ⟨⟨?_, ?_, ?_, ?_, ?_, ?_, ?_, ?_, ?_⟩, ?_⟩
  · rw [h.handled]; exact i.sorted
  · rw [h.handled, h.chans]; exact i.done
  · rw [h.handled, h.pendingRx, hl]; exact i.rx
  · rw [h.load, hl]; exact i.ld
  · rw [h.load, h.handled, h.pendingRx]; exact i.fresh
  · rw [h.events, hl]; exact i.starts
  · rw [h.events]; exact i.once
  · rw [h.events, h.chans, h.handled]; exact i.truth
  · rw [h.doc, h.handled, h.chans]; exact i.shown
  · rw [h.load, h.pendingRx]; exact i.synced

theorem filter_isOk_congr {l : List Nat} {a b : List Chan} (h : ∀ m ∈ l, a[m]? = b[m]?) :
    (l.filter fun n => isOk a[n]?) = l.filter fun n => isOk b[n]? := by
  apply List.filter_congr
  intro m hm
  rw [h m hm]

theorem get_append_of {l l' : List Chan} {m : Nat} {c : Chan} (h : l[m]? = some c) : (l ++ l')[m]? = some c := by
  rw [List.getElem?_append_left (List.getElem?_eq_some_iff.1 h).1, h]

theorem number_lt {t : Tab} (i : InvU t) {m : Mark} {n : Nat} (h : (m, n) ∈ numbered t.events) :
    n < t.tasks.length := by
  by_cases hm : m = .start
  · have : n ∈ ((numbered t.events).filter fun p => decide (p.1 = Mark.start)).map (·.2) :=
      List.mem_map.2 ⟨(m, n), List.mem_filter.2 ⟨h, by simp [hm]⟩, rfl⟩
    rw [i.starts] at this
    exact List.mem_range.1 this
  · obtain ⟨c, hc, _⟩ := i.truth m n h hm
    rw [← chans_length]
    exact (List.getElem?_eq_some_iff.1 hc).1

theorem invU_eff {t t' : Tab} (h : Eff t t') (i : InvU t) : InvU t' := by
  have hlen := chans_length t
  have hlen' := chans_length t'
  cases h.kind with
  | none hc hl he h1 h2 =>
    have hlt : t'.tasks.length = t.tasks.length := by rw [← hlen, ← hlen', hc]
    refine ⟨?_, ?_, ?_, ?_, ?_, ?_, ?_, ?_, ?_⟩
    · rw [h.handled]; exact i.sorted
    · rw [h.handled, hc]; exact i.done
    · rw [h.handled, h.pendingRx, hlt]; exact i.rx
    · rw [hl, hlt]; exact i.ld
    · rw [hl, h.handled, h.pendingRx]; exact i.fresh
    · rw [he, hlt]; exact i.starts
    · rw [he]; exact i.once
    · rw [he, hc, h.handled]; exact i.truth
    · rw [h.doc, h.handled, hc]; exact i.shown
  | drop hc hl he h1 h2 =>
    have hlt : t'.tasks.length = t.tasks.length := by rw [← hlen, ← hlen', hc]
    refine ⟨?_, ?_, ?_, ?_, ?_, ?_, ?_, ?_, ?_⟩
    · rw [h.handled]; exact i.sorted
    · rw [h.handled, hc]; exact i.done
    · rw [h.handled, h.pendingRx, hlt]; exact i.rx
    · rw [hl]; simp
    · rw [hl]; simp
    · rw [he, hlt]; exact i.starts
    · rw [he]; exact i.once
    · rw [he, hc, h.handled]; exact i.truth
    · rw [h.doc, h.handled, hc]; exact i.shown
  | same hc hl he h1 h2 =>
    have hlt : t'.tasks.length = t.tasks.length + 1 := by rw [← hlen, ← hlen', hc]; simp
    refine ⟨?_, ?_, ?_, ?_, ?_, ?_, ?_, ?_, ?_⟩
    · rw [h.handled]; exact i.sorted
    · rw [h.handled, hc]
      intro m hm
      obtain ⟨c, h3, h4⟩ := i.done m hm
      exact ⟨c, get_append_of h3, h4⟩
    · rw [h.handled, h.pendingRx, hlt]
      intro n hn
      exact ⟨by have := (i.rx n hn).1; omega, (i.rx n hn).2⟩
    · rw [hl, hlt]
      intro n b hn
      have := i.ld n b hn
      omega
    · rw [hl, h.handled, h.pendingRx]; exact i.fresh
    · rw [he, hlt, List.filter_append, List.map_append, i.starts, List.range_succ]
      rfl
    · rw [he, List.filter_append, List.map_append]
      rw [List.nodup_append]
      refine ⟨i.once, by simp, ?_⟩
      intro a ha b hb hab
      subst hab
      obtain ⟨⟨m, n⟩, h3, rfl⟩ := List.mem_map.1 ha
      have := number_lt i (List.mem_filter.1 h3).1
      simp at hb
      omega
    · rw [he, hc, h.handled]
      intro m n hm hs
      rcases List.mem_append.1 hm with hm | hm
      · obtain ⟨c, h3, h4⟩ := i.truth m n hm hs
        exact ⟨c, get_append_of h3, h4⟩
      · simp only [List.mem_cons, Prod.mk.injEq, List.not_mem_nil, or_false] at hm
        rcases hm with ⟨rfl, _⟩ | ⟨rfl, rfl⟩
        · exact absurd rfl hs
        · refine ⟨.dropped, ?_, by simp, Or.inl rfl, Or.inr rfl⟩
          rw [← hlen]; simp
    · rw [h.doc, h.handled, hc, i.shown]
      congr 1
      apply filter_isOk_congr
      intro m hm
      obtain ⟨c, h3, h4⟩ := i.done m hm
      rw [get_append_of h3, h3]
  | start hc hl he h1 h2 =>
    have hlt : t'.tasks.length = t.tasks.length + 1 := by rw [← hlen, ← hlen', hc]; simp
    have hh : ∀ m ∈ t.handled, m < t.tasks.length := by
      intro m hm
      obtain ⟨c, h3, h4⟩ := i.done m hm
      have := (List.getElem?_eq_some_iff.1 h3).1
      omega
    refine ⟨?_, ?_, ?_, ?_, ?_, ?_, ?_, ?_, ?_⟩
    · rw [h.handled]; exact i.sorted
    · rw [h.handled, hc]
      intro m hm
      obtain ⟨c, h3, h4⟩ := i.done m hm
      exact ⟨c, get_append_of h3, h4⟩
    · rw [h.handled, h.pendingRx, hlt]
      intro n hn
      exact ⟨by have := (i.rx n hn).1; omega, (i.rx n hn).2⟩
    · rw [hl, hlt]
      intro n b hn
      simp only [Option.some.injEq, Prod.mk.injEq] at hn
      omega
    · rw [hl, h.handled, h.pendingRx]
      intro n hn
      simp only [Option.some.injEq, Prod.mk.injEq, and_true] at hn
      subst hn
      exact ⟨hh, fun p hp => (i.rx p hp).1⟩
    · rw [he, hlt, List.filter_append, List.map_append, i.starts, List.range_succ]
      rfl
    · rw [he, List.filter_append, List.map_append]
      have : (List.filter (fun p => decide (p.1 ≠ Mark.start)) [(Mark.start, t.tasks.length)]) = [] := rfl
      rw [this, List.map_nil, List.append_nil]
      exact i.once
    · rw [he, hc, h.handled]
      intro m n hm hs
      rcases List.mem_append.1 hm with hm | hm
      · obtain ⟨c, h3, h4⟩ := i.truth m n hm hs
        exact ⟨c, get_append_of h3, h4⟩
      · simp only [List.mem_cons, Prod.mk.injEq, List.not_mem_nil, or_false] at hm
        exact absurd hm.1 hs
    · rw [h.doc, h.handled, hc, i.shown]
      congr 1
      apply filter_isOk_congr
      intro m hm
      obtain ⟨c, h3, h4⟩ := i.done m hm
      rw [get_append_of h3, h3]

theorem inv_sync {t : Tab} (i : InvU t) : Inv t.sync := by
  by_cases h : ∃ n, t.pendingRx = none ∧ t.load = some (n, true)
  · obtain ⟨n, h1, h2⟩ := h
    have e : t.sync = { t with pendingRx := some n, load := some (n, false) } := by
      simp only [Tab.sync, h1, h2]
    rw [e]
    refine ⟨⟨i.sorted, i.done, ?_, ?_, ?_, i.starts, i.once, i.truth, i.shown⟩, by simp⟩
    · intro m hm
      simp only [Option.some.injEq] at hm
      subst hm
      exact ⟨i.ld n true h2, (i.fresh n h2).1⟩
    · intro m b hm
      simp only [Option.some.injEq, Prod.mk.injEq] at hm
      obtain ⟨rfl, _⟩ := hm
      exact i.ld n true h2
    · intro m hm
      simp at hm
  · have e : t.sync = t := by
      unfold Tab.sync
      split
      · rename_i n h1 h2
        exact absurd ⟨n, h1, h2⟩ h
      · rfl
    rw [e]
    exact ⟨i, fun h1 n h2 => h ⟨n, h1, h2⟩⟩

theorem get_set_of {l : List Chan} {n m : Nat} {c d : Chan} (hn : l[n]? = some .empty) (hm : l[m]? = some d)
    (hd : d ≠ .empty) : (l.set n c)[m]? = some d := by
  rw [List.getElem?_set_ne _, hm]
  intro he
  subst he
  rw [hn] at hm
  cases hm
  exact hd rfl

theorem inv_taskStep {t t' : Tab} (h : TaskStep t t') (i : Inv t) : Inv t' := by
  cases h with
  | none h => exact inv_same h i
  | ends n c hn hc hcs hl hp hh hd hv hlo her he =>
    have hlt : t'.tasks.length = t.tasks.length := by rw [← chans_length, ← chans_length, hcs, List.length_set]
    have hnl := (List.getElem?_eq_some_iff.1 hn).1
    have hst : ∀ m ∈ t.handled, (chans t')[m]? = (chans t)[m]? := by
      intro m hm
      obtain ⟨d, h3, h4⟩ := i.done m hm
      rw [hcs, get_set_of hn h3 h4, h3]
    refine ⟨⟨?_, ?_, ?_, ?_, ?_, ?_, ?_, ?_, ?_⟩, ?_⟩
    · rw [hh]; exact i.sorted
    · rw [hh]
      intro m hm
      rw [hst m hm]
      exact i.done m hm
    · rw [hh, hp, hlt]; exact i.rx
    · rw [hl, hlt]; exact i.ld
    · rw [hl, hh, hp]; exact i.fresh
    · rw [hlt]
      rcases he with he | ⟨_, he⟩
      · rw [he]; exact i.starts
      · rw [he, List.filter_append, List.map_append, i.starts]
        have : (List.filter (fun p => decide (p.1 = Mark.start)) [(Mark.failed, n)]) = [] := rfl
        rw [this, List.map_nil, List.append_nil]
    · rcases he with he | ⟨_, he⟩
      · rw [he]; exact i.once
      · rw [he, List.filter_append, List.map_append, List.nodup_append]
        refine ⟨i.once, by simp, ?_⟩
        intro a ha b hb hab
        subst hab
        obtain ⟨⟨m, k⟩, h3, rfl⟩ := List.mem_map.1 ha
        obtain ⟨h4, h5⟩ := List.mem_filter.1 h3
        obtain ⟨d, h6, h7, _⟩ := i.truth m k h4 (by simpa using h5)
        simp at hb
        subst hb
        rw [hn] at h6
        cases h6
        exact h7 rfl
    · intro m k hm hs
      have old : (m, k) ∈ numbered t.events →
          ∃ c, (chans t')[k]? = some c ∧ c ≠ .empty ∧ Truthful m c ∧ (k ∈ t'.handled ∨ c = .dropped) := by
        intro hm
        obtain ⟨d, h3, h4, h5⟩ := i.truth m k hm hs
        refine ⟨d, by rw [hcs, get_set_of hn h3 h4], h4, ?_⟩
        rw [hh]
        exact h5
      rcases he with he | ⟨hcd, he⟩
      · rw [he] at hm; exact old hm
      · rw [he] at hm
        rcases List.mem_append.1 hm with hm | hm
        · exact old hm
        · simp only [List.mem_cons, Prod.mk.injEq, List.not_mem_nil, or_false] at hm
          obtain ⟨rfl, rfl⟩ := hm
          refine ⟨c, ?_, hc, ?_, Or.inr hcd⟩
          · rw [hcs, List.getElem?_set_self hnl]
          · exact Or.inl hcd
    · rw [hd, hh, i.shown]
      congr 1
      apply List.filter_congr
      intro m hm
      rw [hst m hm]
    · rw [hl, hp]; exact i.synced

/-- What handling an answer does. -/
inductive Delivered (t t' : Tab) : Prop
  | none (h : t' = t) (hw : ∀ n, t.pendingRx = some n → (chans t)[n]? = some .empty ∨ (chans t)[n]? = Option.none)
  | dropped (n : Nat) (hn : t.pendingRx = some n) (hc : (chans t)[n]? = some .dropped)
      (h : t' = { t with pendingRx := Option.none, handled := t.handled ++ [n] })
  | sent (n : Nat) (r : Result) (hn : t.pendingRx = some n) (hc : (chans t)[n]? = some (.sent r))
      (h : Ans n r { t with pendingRx := Option.none, handled := t.handled ++ [n] } t')

theorem deliver_delivered {env : Env} {t t' : Tab} (h : deliver env t = some t') : Delivered t t' := by
  unfold deliver at h
  cases hp : t.pendingRx with
  | none =>
    rw [hp] at h
    simp only [Option.some.injEq] at h
    exact .none h.symm (by simp [hp])
  | some n =>
    rw [hp] at h
    simp only at h
    cases hk : t.tasks[n]? with
    | none =>
      rw [hk] at h
      simp only [Option.some.injEq] at h
      refine .none h.symm ?_
      intro m hm
      rw [hp] at hm
      cases hm
      right
      simp [chans, hk]
    | some k =>
      rw [hk] at h
      simp only at h
      have hck : (chans t)[n]? = some k.chan := by simp [chans, hk]
      cases hc : k.chan with
      | empty =>
        rw [hc] at h
        simp only [Option.some.injEq] at h
        refine .none h.symm ?_
        intro m hm
        rw [hp] at hm
        cases hm
        left
        rw [hck, hc]
      | sent r =>
        rw [hc] at h
        exact .sent n r hp (by rw [hck, hc]) (onResult_ans h)
      | dropped =>
        rw [hc] at h
        simp only [Option.some.injEq] at h
        exact .dropped n hp (by rw [hck, hc]) h.symm

theorem truthful_mark (r : Result) : Truthful (markOf r) (.sent r) := by
  cases r <;> simp [markOf, Truthful]

theorem markOf_ne (r : Result) : markOf r ≠ .start := by cases r <;> simp [markOf]

theorem invU_delivered {t t' : Tab} (h : Delivered t t') (i : Inv t) : InvU t' := by
  cases h with
  | none h hw => rw [h]; exact i.toInvU
  | dropped n hn hc h =>
    obtain ⟨hnl, hlt⟩ := i.rx n hn
    subst h
    refine ⟨?_, ?_, by simp, i.ld, ?_, i.starts, i.once, ?_, ?_⟩
    · simp only
      rw [List.pairwise_append]
      exact ⟨i.sorted, by simp, by simpa using hlt⟩
    · intro m hm
      simp only [List.mem_append, List.mem_singleton] at hm
      rcases hm with hm | rfl
      · exact i.done m hm
      · exact ⟨.dropped, hc, by simp⟩
    · intro m hm
      refine ⟨?_, by simp⟩
      intro k hk
      simp only [List.mem_append, List.mem_singleton] at hk
      rcases hk with hk | rfl
      · exact (i.fresh m hm).1 k hk
      · exact (i.fresh m hm).2 _ hn
    · intro m k hm hs
      obtain ⟨c, h3, h4, h5, h6⟩ := i.truth m k hm hs
      refine ⟨c, h3, h4, h5, ?_⟩
      rcases h6 with h6 | h6
      · left; simp [h6]
      · right; exact h6
    · have e : chans { t with pendingRx := none, handled := t.handled ++ [n] } = chans t := rfl
      rw [e]
      simp only
      rw [List.filter_append, i.shown]
      have : (List.filter (fun n => isOk (chans t)[n]?) [n]) = [] := by simp [hc, isOk]
      rw [this, List.append_nil]
  | sent n r hn hc h =>
    obtain ⟨hnl, hlt⟩ := i.rx n hn
    have hch : chans t' = chans t := h.chans
    have hhd : t'.handled = t.handled ++ [n] := h.handled
    have hlen : t'.tasks.length = t.tasks.length := by rw [← chans_length, ← chans_length, hch]
    have hev : numbered t'.events = numbered t.events ++ [(markOf r, n)] := h.events
    have hld : t'.load = t.load := h.load
    refine ⟨?_, ?_, ?_, ?_, ?_, ?_, ?_, ?_, ?_⟩
    · rw [hhd, List.pairwise_append]
      exact ⟨i.sorted, by simp, by simpa using hlt⟩
    · rw [hhd, hch]
      intro m hm
      simp only [List.mem_append, List.mem_singleton] at hm
      rcases hm with hm | rfl
      · exact i.done m hm
      · exact ⟨_, hc, by simp⟩
    · rw [h.pendingRx]; simp
    · rw [hld, hlen]; exact i.ld
    · rw [hld, h.pendingRx, hhd]
      intro m hm
      refine ⟨?_, by simp⟩
      intro k hk
      simp only [List.mem_append, List.mem_singleton] at hk
      rcases hk with hk | rfl
      · exact (i.fresh m hm).1 k hk
      · exact (i.fresh m hm).2 _ hn
    · rw [hev, hlen, List.filter_append, List.map_append, i.starts]
      have : (List.filter (fun p => decide (p.1 = Mark.start)) [(markOf r, n)]) = [] := by simp [markOf_ne]
      rw [this, List.map_nil, List.append_nil]
    · rw [hev, List.filter_append, List.map_append, List.nodup_append]
      have : (List.filter (fun p => decide (p.1 ≠ Mark.start)) [(markOf r, n)]) = [(markOf r, n)] := by simp [markOf_ne]
      rw [this]
      refine ⟨i.once, by simp, ?_⟩
      intro a ha b hb hab
      subst hab
      obtain ⟨⟨m, k⟩, h3, rfl⟩ := List.mem_map.1 ha
      obtain ⟨h4, h5⟩ := List.mem_filter.1 h3
      obtain ⟨d, h6, h7, _, h9⟩ := i.truth m k h4 (by simpa using h5)
      simp at hb
      subst hb
      rcases h9 with h9 | h9
      · exact absurd (hlt _ h9) (lt_irrefl _)
      · subst h9
        rw [hc] at h6
        cases h6
    · rw [hev, hch, hhd]
      intro m k hm hs
      rcases List.mem_append.1 hm with hm | hm
      · obtain ⟨c, h3, h4, h5, h6⟩ := i.truth m k hm hs
        refine ⟨c, h3, h4, h5, ?_⟩
        rcases h6 with h6 | h6
        · left; simp [h6]
        · right; exact h6
      · simp only [List.mem_cons, Prod.mk.injEq, List.not_mem_nil, or_false] at hm
        obtain ⟨rfl, rfl⟩ := hm
        exact ⟨_, hc, by simp, truthful_mark r, Or.inl (by simp)⟩
    · rw [h.doc, hhd, hch, List.filter_append]
      cases r with
      | ok u ti =>
        have : (List.filter (fun n => isOk (chans t)[n]?) [n]) = [n] := by simp [hc, isOk]
        rw [this]; simp
      | err =>
        have : (List.filter (fun n => isOk (chans t)[n]?) [n]) = [] := by simp [hc, isOk]
        rw [this, List.append_nil]; exact i.shown
      | download u =>
        have : (List.filter (fun n => isOk (chans t)[n]?) [n]) = [] := by simp [hc, isOk]
        rw [this, List.append_nil]; exact i.shown

theorem same_userScroll (t : Tab) (x y : Int) : Same t { t with scroll := (x, y), ctx := ctxScroll t x y } :=
  ⟨by constructor <;> exact Eq.refl _, rfl⟩

theorem same_layout (t : Tab) (p : Option ℚ) (v : ℚ) : Same t { t with page := p, vh := v } :=
  ⟨by constructor <;> exact Eq.refl _, rfl⟩

theorem inv_step {env : Env} {t t' : Tab} {x : Step} (i : Inv t) (h : step env t x = some t') : Inv t' := by
  cases x with
  | cmd c ok =>
    simp only [step, Option.map_eq_some_iff] at h
    obtain ⟨t1, h1, rfl⟩ := h
    exact inv_sync (invU_eff (command_eff h1) i.toInvU)
  | deliver =>
    simp only [step, Option.map_eq_some_iff] at h
    obtain ⟨t1, h1, rfl⟩ := h
    exact inv_sync (invU_delivered (deliver_delivered h1) i)
  | tick => cases h; exact inv_same (tick_same env t).toSame0 i
  | userScroll x y => cases h; exact inv_same (same_userScroll t x y).toSame0 i
  | layout p v => cases h; exact inv_same (same_layout t p v).toSame0 i
  | respond n => cases h; exact inv_taskStep (respond_step t n) i
  | abort n => cases h; exact inv_taskStep (abort_step t n) i
  | finish n o => cases h; exact inv_taskStep (finish_step t n o) i

theorem inv_run {env : Env} {xs : List Step} {t t' : Tab} (i : Inv t) (h : run env t xs = some t') : Inv t' := by
  induction xs generalizing t with
  | nil => cases h; exact i
  | cons x xs ih =>
    simp only [run, Option.bind_eq_bind, Option.bind_eq_some_iff] at h
    obtain ⟨t1, h1, h2⟩ := h
    exact ih (inv_step i h1) h2

theorem inv_reach {env : Env} {title : Str} {t : Tab} (h : Reachable env title t) : Inv t := by
  obtain ⟨xs, hx⟩ := h
  exact inv_run (inv_new title) hx

theorem hist_reach {env : Env} {title : Str} {t : Tab} (h : Reachable env title t) : History.Reachable t.hist := by
  obtain ⟨xs, hx⟩ := h
  obtain ⟨t1, h1, h2⟩ := run_good env xs (t := Tab.new title) ⟨[], rfl⟩
  rw [hx] at h1
  cases h1
  exact h2

end Verif.TabNav
