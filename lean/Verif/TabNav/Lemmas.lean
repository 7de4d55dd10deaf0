import Mathlib.Tactic.Common
import Verif.History.Props
import Verif.TabNav.Spec
set_option linter.unusedVariables false

/-! What the worker's functions leave alone and what they change. -/
namespace Verif.TabNav
open Verif.History (Hist)

/-- the channels of the navigations -/
def chans (t : Tab) : List Chan := t.tasks.map Task.chan

theorem answer_eq (t : Tab) (n : Nat) : answer t n = (chans t)[n]? := by
  unfold answer chans; rw [List.getElem?_map]

theorem chans_length (t : Tab) : (chans t).length = t.tasks.length := by simp [chans]

/-- nothing that has to do with the course of navigations changes -/
structure Same0 (t t' : Tab) : Prop where
  chans : chans t' = chans t
  load : t'.load = t.load
  pendingRx : t'.pendingRx = t.pendingRx
  handled : t'.handled = t.handled
  doc : t'.doc = t.doc
  visits : t'.visits = t.visits
  events : numbered t'.events = numbered t.events
  loading : t'.isLoading = t.isLoading
  error : t'.isError = t.isError

/-- whether the tasks have their responses -/
def resps (t : Tab) : List Bool := t.tasks.map Task.responded

structure Same (t t' : Tab) : Prop extends Same0 t t' where
  resps : resps t' = resps t

theorem Same.rfl {t : Tab} : Same t t := by repeat' constructor

theorem Same.trans {a b c : Tab} (h : Same a b) (k : Same b c) : Same a c :=
  ⟨⟨k.chans.trans h.chans, k.load.trans h.load, k.pendingRx.trans h.pendingRx, k.handled.trans h.handled,
    k.doc.trans h.doc, k.visits.trans h.visits, k.events.trans h.events, k.loading.trans h.loading, k.error.trans h.error⟩,
    k.resps.trans h.resps⟩

theorem numbered_append (a b : List Event) : numbered (a ++ b) = numbered a ++ numbered b := by
  simp [numbered]

theorem emit_same (t : Tab) (e : Event) (h : numbered [e] = []) : Same t (t.emit e) := by
  refine ⟨?_, rfl⟩
  constructor <;> first | exact Eq.refl _ | (simp only [Tab.emit, numbered_append, h, List.append_nil])

theorem emitHistory_same {t t' : Tab} (h : t.emitHistory = some t') : Same t t' := by
  simp only [Tab.emitHistory, Option.bind_eq_bind, Option.bind_eq_some_iff] at h
  obtain ⟨s, _, h⟩ := h
  cases h
  exact emit_same t _ (by simp [numbered])

theorem applyScroll_same (t : Tab) (p : Int × Int) : Same t (t.applyScroll p) := by
  exact ⟨by constructor <;> exact Eq.refl _, rfl⟩

theorem chan_cancelTask (ts : List Task) (n : Nat) : (cancelTask ts n).map Task.chan = ts.map Task.chan := by
  unfold cancelTask
  apply List.ext_getElem?
  intro i
  rw [List.getElem?_map, List.getElem?_map, List.getElem?_modify]
  by_cases h : n = i
  · subst h; cases ts[n]? <;> simp
  · cases ts[i]? <;> simp [h]

theorem resp_cancelTask (ts : List Task) (n : Nat) :
    (cancelTask ts n).map Task.responded = ts.map Task.responded := by
  unfold cancelTask
  apply List.ext_getElem?
  intro i
  rw [List.getElem?_map, List.getElem?_map, List.getElem?_modify]
  by_cases h : n = i
  · subst h; cases ts[n]? <;> simp
  · cases ts[i]? <;> simp [h]

theorem cancelActive_same (t : Tab) : Same t t.cancelActive := by
  unfold Tab.cancelActive
  split
  · exact .rfl
  · refine ⟨?_, resp_cancelTask _ _⟩
    constructor <;> first | exact Eq.refl _ | exact chan_cancelTask _ _

theorem leave_same {t t' : Tab} {b : Bool} (h : t.leave b = some t') : Same t t' := by
  have key : ∀ o : Option Hist,
      (o.bind fun h => some ({ t with hist := h, pendingScroll := none } : Tab).resetScroll.cancelActive) = some t' →
      Same t t' := by
    intro o ho
    rw [Option.bind_eq_some_iff] at ho
    obtain ⟨hh, _, ho⟩ := ho
    cases ho
    refine Same.trans ?_ (cancelActive_same _)
    exact ⟨by constructor <;> exact Eq.refl _, rfl⟩
  unfold Tab.leave at h
  exact key _ h

/-- How a command changes the course of navigations. -/
inductive Kind (t t' : Tab) : Prop
  /-- nothing -/
  | none (hc : chans t' = chans t) (hl : t'.load = t.load) (he : numbered t'.events = numbered t.events)
      (h1 : t'.isLoading = t.isLoading) (h2 : t'.isError = t.isError)
  /-- the load is given up -/
  | drop (hc : chans t' = chans t) (hl : t'.load = Option.none) (he : numbered t'.events = numbered t.events)
      (h1 : t'.isLoading = t.isLoading) (h2 : t'.isError = t.isError)
  /-- a navigation within the document -/
  | same (hc : chans t' = chans t ++ [.dropped]) (hl : t'.load = t.load)
      (he : numbered t'.events = numbered t.events ++ [(.start, t.tasks.length), (.done, t.tasks.length)])
      (h1 : t'.isLoading = t.isLoading) (h2 : t'.isError = t.isError)
  /-- a load -/
  | start (hc : chans t' = chans t ++ [.empty]) (hl : t'.load = some (t.tasks.length, true))
      (he : numbered t'.events = numbered t.events ++ [(.start, t.tasks.length)])
      (h1 : t'.isLoading = true) (h2 : t'.isError = false)

structure Eff (t t' : Tab) : Prop where
  pendingRx : t'.pendingRx = t.pendingRx
  handled : t'.handled = t.handled
  doc : t'.doc = t.doc
  visits : t'.visits = t.visits
  kind : Kind t t'
  resps : resps t <+: resps t'

theorem Same.eff {t t' : Tab} (h : Same t t') : Eff t t' :=
  ⟨h.pendingRx, h.handled, h.doc, h.visits, .none h.chans h.load h.events h.loading h.error, h.resps ▸ List.prefix_rfl⟩

theorem Same.length {t t' : Tab} (h : Same t t') : t'.tasks.length = t.tasks.length := by
  rw [← chans_length, ← chans_length, h.chans]

theorem Same.then {a b c : Tab} (h : Same a b) (k : Eff b c) : Eff a c := by
  refine ⟨k.pendingRx.trans h.pendingRx, k.handled.trans h.handled, k.doc.trans h.doc, k.visits.trans h.visits, ?_, h.resps ▸ k.resps⟩
  have hl := h.length
  cases k.kind with
  | none hc hl he h1 h2 => exact .none (hc.trans h.chans) (hl.trans h.load) (he.trans h.events) (h1.trans h.loading) (h2.trans h.error)
  | drop hc hl he h1 h2 => exact .drop (hc.trans h.chans) hl (he.trans h.events) (h1.trans h.loading) (h2.trans h.error)
  | same hc hl2 he h1 h2 =>
    exact .same (by rw [hc, h.chans]) (hl2.trans h.load) (by rw [he, h.events, hl]) (h1.trans h.loading) (h2.trans h.error)
  | start hc hl2 he h1 h2 =>
    exact .start (by rw [hc, h.chans]) (by rw [hl2, hl]) (by rw [he, h.events, hl]) h1 h2

theorem Eff.then {a b c : Tab} (k : Eff a b) (h : Same b c) : Eff a c := by
  refine ⟨h.pendingRx.trans k.pendingRx, h.handled.trans k.handled, h.doc.trans k.doc, h.visits.trans k.visits, ?_, h.resps.symm ▸ k.resps⟩
  cases k.kind with
  | none hc hl he h1 h2 => exact .none (h.chans.trans hc) (h.load.trans hl) (h.events.trans he) (h.loading.trans h1) (h.error.trans h2)
  | drop hc hl he h1 h2 => exact .drop (h.chans.trans hc) (h.load.trans hl) (h.events.trans he) (h.loading.trans h1) (h.error.trans h2)
  | same hc hl he h1 h2 => exact .same (h.chans.trans hc) (h.load.trans hl) (h.events.trans he) (h.loading.trans h1) (h.error.trans h2)
  | start hc hl he h1 h2 => exact .start (h.chans.trans hc) (h.load.trans hl) (h.events.trans he) (h.loading.trans h1) (h.error.trans h2)

theorem start_eff (t : Tab) (url : Url) (i : Intent) (f : Bool) : Eff t (t.start url i f) := by
  refine ⟨rfl, rfl, rfl, rfl, .start ?_ rfl ?_ rfl rfl, by simp [resps, Tab.start]⟩
  · simp [chans, Tab.start]
  · simp only [Tab.start, Tab.emit, numbered_append]
    rfl

theorem startIfBound_eff (t : Tab) (url : Url) (i : Intent) (f ok : Bool) : Eff t (t.startIfBound url i f ok) := by
  unfold Tab.startIfBound
  split
  · exact start_eff t url i f
  · exact ((emit_same t _ (by simp [numbered])).trans (emit_same _ _ (by simp [numbered]))).eff

theorem navigateSame_eff {env : Env} {t t' : Tab} {url : Url} {i : Intent} (h : navigateSame env t url i = some t') :
    Eff t t' := by
  simp only [navigateSame, Option.bind_eq_bind, Option.bind_eq_some_iff] at h
  obtain ⟨hh, _, h⟩ := h
  refine Eff.then ?_ (emitHistory_same h)
  split
  · refine ⟨rfl, rfl, rfl, rfl, .same ?_ rfl ?_ rfl rfl, by simp [resps, Tab.emit, Tab.applyScroll]⟩
    · simp [chans, Tab.emit, Tab.applyScroll]
    · simp only [Tab.emit, Tab.applyScroll, numbered_append, List.append_assoc]
      rfl
  · refine ⟨rfl, rfl, rfl, rfl, .same ?_ rfl ?_ rfl rfl, by simp [resps, Tab.emit, Tab.applyScroll]⟩
    · simp [chans, Tab.emit]
    · simp only [Tab.emit, numbered_append, List.append_assoc]
      rfl

theorem navigateTo_eff {env : Env} {t t' : Tab} {s : Str} {i : Intent} {ok : Bool}
    (h : navigateTo env t s i ok = some t') : Eff t t' := by
  unfold navigateTo at h
  split at h
  · cases h
    exact (emit_same t _ (by simp [numbered])).eff
  · split at h
    · exact navigateSame_eff h
    · simp only [Option.bind_eq_bind, Option.bind_eq_some_iff] at h
      obtain ⟨t1, h1, h⟩ := h
      cases h
      exact (leave_same h1).then (startIfBound_eff _ _ _ _ _)

theorem traverse_eff {env : Env} {t t' : Tab} {e : Nat} {ok : Bool} (h : traverse env t e ok = some t') : Eff t t' := by
  unfold traverse at h
  split at h
  · cases h; exact Same.rfl.eff
  · simp only [Option.bind_eq_bind, Option.bind_eq_some_iff] at h
    obtain ⟨t1, h1, h⟩ := h
    exact (navigateTo_eff h1).then (emitHistory_same h)

theorem hist_same (t : Tab) (h : Hist) : Same t { t with hist := h } := by
  exact ⟨by constructor <;> exact Eq.refl _, rfl⟩

theorem moved_eff {env : Env} {t t' : Tab} {ok : Bool} {r : Hist × Option Nat} (h : moved env t ok r = some t') :
    Eff t t' := by
  unfold moved at h
  split at h
  · cases h; exact (hist_same t _).eff
  · exact (hist_same t _).then (traverse_eff h)

theorem command_eff {env : Env} {t t' : Tab} {ok : Bool} {c : Cmd} (h : command env t ok c = some t') : Eff t t' := by
  cases c with
  | setTitle s => simp only [command, Option.some.injEq] at h; subst h; exact ⟨rfl, rfl, rfl, rfl, .none rfl rfl rfl rfl rfl, List.prefix_rfl⟩
  | navigate s => exact navigateTo_eff h
  | loadHtml base =>
    simp only [command] at h
    split at h
    · cases h
      exact (emit_same t _ (by simp [numbered])).eff
    · simp only [Option.bind_eq_bind, Option.bind_eq_some_iff] at h
      obtain ⟨t1, h1, h⟩ := h
      cases h
      exact (leave_same h1).then (startIfBound_eff _ _ _ _ _)
  | reload => exact navigateTo_eff h
  | goBack =>
    simp only [command, Option.bind_eq_bind, Option.bind_eq_some_iff] at h
    obtain ⟨_, _, _, _, h⟩ := h
    exact moved_eff h
  | goForward e =>
    simp only [command, Option.bind_eq_bind, Option.bind_eq_some_iff] at h
    obtain ⟨_, _, _, _, h⟩ := h
    exact moved_eff h
  | goTo e =>
    simp only [command] at h
    split at h
    · cases h; exact Same.rfl.eff
    · simp only [Option.bind_eq_bind, Option.bind_eq_some_iff] at h
      obtain ⟨_, _, _, _, h⟩ := h
      exact moved_eff h
  | cancel =>
    simp only [command] at h
    split at h
    · cases h; exact Same.rfl.eff
    · cases h
      exact ⟨rfl, rfl, rfl, rfl, .drop (chan_cancelTask _ _) rfl rfl rfl rfl, by
        unfold resps; rw [resp_cancelTask]; exact List.prefix_rfl⟩

/-! ## Answers -/

/-- what is recorded of an answer as a visit -/
def visitOf (title : Str) : Result → List (Url × Str)
  | .ok u ti => if u.web then [(u, ti.getD title)] else []
  | _ => []

/-- how an answer is reported -/
def markOf : Result → Mark
  | .ok _ _ => .done
  | .err => .failed
  | .download _ => .cancelled

structure Ans (n : Nat) (r : Result) (t t' : Tab) : Prop where
  chans : chans t' = chans t
  load : t'.load = t.load
  pendingRx : t'.pendingRx = t.pendingRx
  handled : t'.handled = t.handled
  doc : t'.doc = match r with | .ok _ _ => some n | _ => t.doc
  visits : t'.visits = t.visits ++ visitOf t.title r
  events : numbered t'.events = numbered t.events ++ [(markOf r, n)]
  loading : t'.isLoading = false
  error : t'.isError = match r with | .err => true | _ => false
  cur : ∀ u ti, r = .ok u ti → t'.cur = some u

theorem emitHistory_cur {t t' : Tab} (h : t.emitHistory = some t') : t'.cur = t.cur := by
  simp only [Tab.emitHistory, Option.bind_eq_bind, Option.bind_eq_some_iff] at h
  obtain ⟨s, _, h⟩ := h
  cases h
  rfl

theorem onResult_ans {env : Env} {t t' : Tab} {n : Nat} {r : Result} (h : onResult env t n r = some t') : Ans n r t t' := by
  cases r with
  | ok u ti =>
    simp only [onResult, Option.bind_eq_bind, Option.bind_eq_some_iff] at h
    obtain ⟨hh, _, h⟩ := h
    have hs := emitHistory_same h
    have hcur := emitHistory_cur h
    refine ⟨hs.chans, hs.load, hs.pendingRx, hs.handled, hs.doc, ?_, ?_, hs.loading, hs.error, ?_⟩
    · rw [hs.visits]
      simp only [Tab.emit, visitOf]
      split <;> simp
    · rw [hs.events]
      simp only [Tab.emit, numbered_append]
      rfl
    · intro u' ti' he
      cases he
      exact hcur
  | err =>
    simp only [onResult, Option.some.injEq] at h
    subst h
    refine ⟨rfl, rfl, rfl, rfl, rfl, by simp [Tab.emit, visitOf], ?_, rfl, rfl, by simp⟩
    simp only [Tab.emit, numbered_append]
    rfl
  | download u =>
    simp only [onResult, Option.some.injEq] at h
    subst h
    refine ⟨rfl, rfl, rfl, rfl, rfl, by simp [Tab.emit, visitOf], ?_, rfl, rfl, by simp⟩
    simp only [Tab.emit, numbered_append, List.append_assoc]
    rfl

/-! ## Tasks -/

theorem running_some {t : Tab} {n : Nat} {k : Task} (h : t.running n = some k) :
    t.tasks[n]? = some k ∧ k.chan = .empty := by
  simpa [Tab.running, Option.filter_eq_some_iff] using h

theorem chans_set (ts : List Task) (n : Nat) (k : Task) : (ts.set n k).map Task.chan = (ts.map Task.chan).set n k.chan := by
  rw [List.map_set]

/-- A task may end: one empty channel gets an answer, or nothing changes. -/
inductive TaskStep (t t' : Tab) : Prop
  | none (h : Same0 t t')
  | ends (n : Nat) (c : Chan) (hn : (chans t)[n]? = some .empty) (hc : c ≠ .empty)
      (hcs : chans t' = (chans t).set n c) (hl : t'.load = t.load) (hp : t'.pendingRx = t.pendingRx)
      (hh : t'.handled = t.handled) (hd : t'.doc = t.doc) (hv : t'.visits = t.visits)
      (hlo : t'.isLoading = t.isLoading) (her : t'.isError = t.isError)
      (he : numbered t'.events = numbered t.events ∨
        (c = .dropped ∧ numbered t'.events = numbered t.events ++ [(.failed, n)]))

theorem running_chan {t : Tab} {n : Nat} {k : Task} (h : t.running n = some k) : (chans t)[n]? = some .empty := by
  obtain ⟨h1, h2⟩ := running_some h
  unfold chans
  rw [List.getElem?_map, h1, Option.map_some, h2]

theorem set_same {t : Tab} {n : Nat} {k : Task} (h : t.running n = some k) (k' : Task) (hk : k'.chan = .empty) :
    (t.tasks.set n k').map Task.chan = chans t := by
  rw [chans_set, hk]
  apply List.ext_getElem?
  intro i
  rw [List.getElem?_set]
  have := running_chan h
  unfold chans at this ⊢
  split
  · subst i
    rw [this]
    split
    · rfl
    · rename_i hlt
      simp only [not_lt] at hlt
      rw [List.getElem?_eq_none (by simpa using hlt)] at this
      cases this
  · rfl

theorem respond_step (t : Tab) (n : Nat) : TaskStep t (respond t n) := by
  unfold respond
  split
  · exact .none Same.rfl.toSame0
  · rename_i k hk
    split
    · exact .none Same.rfl.toSame0
    · refine .none ?_
      constructor <;> first | exact Eq.refl _ | exact set_same hk _ (running_some hk).2

theorem abort_step (t : Tab) (n : Nat) : TaskStep t (abort t n) := by
  unfold abort
  split
  · exact .none Same.rfl.toSame0
  · rename_i k hk
    split
    · exact .none Same.rfl.toSame0
    · exact .ends n (.sent .err) (running_chan hk) (by simp) (chans_set _ _ _) rfl rfl rfl rfl rfl rfl rfl (Or.inl rfl)

theorem finish_step (t : Tab) (n : Nat) (o : Outcome) : TaskStep t (finish t n o) := by
  unfold finish
  split
  · exact .none Same.rfl.toSame0
  · rename_i k hk
    split
    · exact .none Same.rfl.toSame0
    · split
      · rename_i r
        exact .ends n (.sent r) (running_chan hk) (by simp) (chans_set _ _ _) rfl rfl rfl rfl rfl rfl rfl (Or.inl rfl)
      · rename_i url
        refine .ends n .dropped (running_chan hk) (by simp) (chans_set _ _ _) rfl rfl rfl rfl rfl rfl rfl (Or.inr ⟨rfl, ?_⟩)
        simp only [Tab.emit, numbered_append]
        rfl
      · exact .ends n .dropped (running_chan hk) (by simp) (chans_set _ _ _) rfl rfl rfl rfl rfl rfl rfl (Or.inl rfl)

theorem tick_same (env : Env) (t : Tab) : Same t (tick env t) := by
  unfold tick
  split
  · split
    · split
      · exact ⟨by constructor <;> exact Eq.refl _, rfl⟩
      · split <;> exact ⟨by constructor <;> exact Eq.refl _, rfl⟩
    · exact .rfl
  · exact .rfl

end Verif.TabNav
