import Verif.TabNav.Lemmas2
set_option linter.unusedVariables false

/-! The last navigation wins; visits; orderly schedules. -/
namespace Verif.TabNav
open Verif.History (Hist)

theorem run_cons {env : Env} {t t' : Tab} {x : Step} {xs : List Step} (h : run env t (x :: xs) = some t') :
    ∃ t1, step env t x = some t1 ∧ run env t1 xs = some t' := by
  simpa [run, Option.bind_eq_some_iff] using h

theorem run_append (env : Env) (t : Tab) (a b : List Step) :
    run env t (a ++ b) = (run env t a).bind fun t => run env t b := by
  induction a generalizing t with
  | nil => rfl
  | cons x a ih =>
    simp only [List.cons_append, run, Option.bind_eq_bind]
    cases step env t x <;> simp [ih]

theorem reachable_run {env : Env} {title : Str} {t t' : Tab} {xs : List Step} (h : Reachable env title t)
    (hr : run env t xs = some t') : Reachable env title t' := by
  obtain ⟨ys, hy⟩ := h
  exact ⟨ys ++ xs, by rw [run_append, hy]; exact hr⟩

theorem reachable_step {env : Env} {title : Str} {t t' : Tab} {x : Step} (h : Reachable env title t)
    (hr : step env t x = some t') : Reachable env title t' :=
  reachable_run (xs := [x]) h (by simp [run, hr])

/-! ## the address shown -/

theorem tick_cur (env : Env) (t : Tab) : (tick env t).cur = t.cur := by
  unfold tick
  split
  · split
    · split
      · rfl
      · split <;> rfl
    · rfl
  · rfl

theorem respond_cur (t : Tab) (n : Nat) : (respond t n).cur = t.cur := by
  unfold respond; split
  · rfl
  · split <;> rfl

theorem abort_cur (t : Tab) (n : Nat) : (abort t n).cur = t.cur := by
  unfold abort; split
  · rfl
  · split <;> rfl

theorem finish_cur (t : Tab) (n : Nat) (o : Outcome) : (finish t n o).cur = t.cur := by
  unfold finish; split
  · rfl
  · split
    · rfl
    · split <;> rfl

/-- A step of the environment: not a command, not the worker taking an answer. -/
inductive Env1 (t t' : Tab) : Prop
  | mk (hs : TaskStep t t') (hc : t'.cur = t.cur)

theorem step_env1 {env : Env} {t t' : Tab} {x : Step} (h : step env t x = some t') (hc : ∀ c ok, x ≠ .cmd c ok)
    (hd : x ≠ .deliver) : Env1 t t' := by
  cases x with
  | cmd c ok => exact absurd rfl (hc c ok)
  | deliver => exact absurd rfl hd
  | tick => cases h; exact ⟨.none (tick_same env t).toSame0, tick_cur env t⟩
  | userScroll x y => cases h; exact ⟨.none (same_userScroll t x y).toSame0, rfl⟩
  | layout p v => cases h; exact ⟨.none (same_layout t p v).toSame0, rfl⟩
  | respond n => cases h; exact ⟨respond_step t n, respond_cur t n⟩
  | abort n => cases h; exact ⟨abort_step t n, abort_cur t n⟩
  | finish n o => cases h; exact ⟨finish_step t n o, finish_cur t n o⟩

theorem TaskStep.load {t t' : Tab} (h : TaskStep t t') : t'.load = t.load := by
  cases h with
  | none h => exact h.load
  | ends n c hn hc hcs hl hp hh hd hv hlo her he => exact hl

theorem TaskStep.pendingRx {t t' : Tab} (h : TaskStep t t') : t'.pendingRx = t.pendingRx := by
  cases h with
  | none h => exact h.pendingRx
  | ends n c hn hc hcs hl hp hh hd hv hlo her he => exact hp

theorem TaskStep.doc {t t' : Tab} (h : TaskStep t t') : t'.doc = t.doc := by
  cases h with
  | none h => exact h.doc
  | ends n c hn hc hcs hl hp hh hd hv hlo her he => exact hd

theorem TaskStep.loading {t t' : Tab} (h : TaskStep t t') : t'.isLoading = t.isLoading := by
  cases h with
  | none h => exact h.loading
  | ends n c hn hc hcs hl hp hh hd hv hlo her he => exact hlo

theorem TaskStep.error {t t' : Tab} (h : TaskStep t t') : t'.isError = t.isError := by
  cases h with
  | none h => exact h.error
  | ends n c hn hc hcs hl hp hh hd hv hlo her he => exact her

theorem TaskStep.keep {t t' : Tab} (h : TaskStep t t') {n : Nat} {c : Chan} (hn : (chans t)[n]? = some c)
    (hc : c ≠ .empty) : (chans t')[n]? = some c := by
  cases h with
  | none h => rw [h.chans, hn]
  | ends m d hm hd hcs hl hp hh hdo hv hlo her he => rw [hcs, get_set_of hm hn hc]

theorem sync_idle {t : Tab} (h : t.pendingRx = none) (hl : ∀ n, t.load ≠ some (n, true)) : t.sync = t := by
  unfold Tab.sync
  split
  · rename_i n _ h2
    exact absurd h2 (hl n)
  · rfl

theorem deliver_idle {env : Env} {t : Tab} (h : t.pendingRx = none) : deliver env t = some t := by
  unfold deliver; rw [h]

/-! ## The last navigation -/

/-- how far navigation `n`, the last one started, has got -/
inductive Stage (n : Nat) (t : Tab) : Prop
  | waits (h : t.pendingRx ≠ none) (hl : t.load = some (n, true))
  | flies (h : t.pendingRx = some n) (hl : t.load = some (n, false))
  | over (h : t.pendingRx = none) (hl : t.load = some (n, false)) (c : Chan) (hc : (chans t)[n]? = some c)
      (hs : Shows t n c)

theorem shows_ne {t : Tab} {n : Nat} {c : Chan} (h : Shows t n c) : c ≠ .empty := by
  rintro rfl; exact h

theorem shows_congr {t t' : Tab} {n : Nat} {c : Chan} (hd : t'.doc = t.doc) (hu : t'.cur = t.cur)
    (hl : t'.isLoading = t.isLoading) (he : t'.isError = t.isError) (h : Shows t n c) : Shows t' n c := by
  cases c with
  | empty => exact h
  | dropped => trivial
  | sent r =>
    cases r with
    | ok u ti => simp only [Shows] at h ⊢; rw [hd, hu, hl, he]; exact h
    | err => simp only [Shows] at h ⊢; rw [hl, he]; exact h
    | download u => simp only [Shows] at h ⊢; rw [hl, he]; exact h

theorem ans_shows {n : Nat} {r : Result} {t t' : Tab} (h : Ans n r t t') : Shows t' n (.sent r) := by
  cases r with
  | ok u ti => exact ⟨h.doc, h.cur u ti rfl, h.loading, h.error⟩
  | err => exact ⟨h.loading, h.error⟩
  | download u => exact ⟨h.loading, h.error⟩

theorem stage_step {env : Env} {n : Nat} {t t' : Tab} {x : Step} (s : Stage n t) (h : step env t x = some t')
    (hc : ∀ c ok, x ≠ .cmd c ok) : Stage n t' := by
  by_cases hd : x = .deliver
  · subst hd
    simp only [step, Option.map_eq_some_iff] at h
    obtain ⟨t1, h1, rfl⟩ := h
    cases s with
    | over hp hl c hcc hs =>
      rw [deliver_idle hp] at h1
      cases h1
      rw [sync_idle hp (by simp [hl])]
      exact .over hp hl c hcc hs
    | waits hp hl =>
      cases deliver_delivered h1 with
      | none he hw =>
        subst he
        have : t1.sync = t1 := by
          unfold Tab.sync
          split
          · rename_i h2 _; exact absurd h2 hp
          · rfl
        rw [this]
        exact .waits hp hl
      | dropped m hm hmc he =>
        subst he
        have : Tab.sync { t with pendingRx := none, handled := t.handled ++ [m] } =
            { t with pendingRx := some n, handled := t.handled ++ [m], load := some (n, false) } := by
          simp only [Tab.sync, hl]
        rw [this]
        exact .flies rfl rfl
      | sent m r hm hmc ha =>
        have e1 : t1.pendingRx = none := ha.pendingRx
        have e2 : t1.load = some (n, true) := ha.load.trans hl
        have : t1.sync = { t1 with pendingRx := some n, load := some (n, false) } := by
          simp only [Tab.sync, e1, e2]
        rw [this]
        exact .flies rfl rfl
    | flies hp hl =>
      cases deliver_delivered h1 with
      | none he hw =>
        subst he
        have : t1.sync = t1 := by
          unfold Tab.sync
          split
          · rename_i h2 _; rw [hp] at h2; cases h2
          · rfl
        rw [this]
        exact .flies hp hl
      | dropped m hm hmc he =>
        rw [hp] at hm
        cases hm
        subst he
        rw [sync_idle rfl (by simp [hl])]
        exact .over rfl hl .dropped hmc trivial
      | sent m r hm hmc ha =>
        rw [hp] at hm
        cases hm
        have e2 : t1.load = some (n, false) := ha.load.trans hl
        rw [sync_idle ha.pendingRx (by simp [e2])]
        exact .over ha.pendingRx e2 _ (by rw [ha.chans]; exact hmc) (ans_shows ha)
  · obtain ⟨e, hcur⟩ := step_env1 h hc hd
    cases s with
    | waits hp hl => exact .waits (by rw [e.pendingRx]; exact hp) (by rw [e.load]; exact hl)
    | flies hp hl => exact .flies (by rw [e.pendingRx]; exact hp) (by rw [e.load]; exact hl)
    | over hp hl c hcc hs =>
      exact .over (by rw [e.pendingRx]; exact hp) (by rw [e.load]; exact hl) c (e.keep hcc (shows_ne hs))
        (shows_congr e.doc hcur e.loading e.error hs)

theorem waiting_cons {x : Step} {xs : List Step} (h : Waiting (x :: xs)) : (∀ c ok, x ≠ .cmd c ok) ∧ Waiting xs :=
  ⟨fun c ok he => h c ok (by simp [he]), fun c ok hm => h c ok (by simp [hm])⟩

theorem stage_run {env : Env} {n : Nat} {xs : List Step} {t t' : Tab} (s : Stage n t) (h : run env t xs = some t')
    (hw : Waiting xs) : Stage n t' := by
  induction xs generalizing t with
  | nil => cases h; exact s
  | cons x xs ih =>
    obtain ⟨t1, h1, h2⟩ := run_cons h
    obtain ⟨hx, hw⟩ := waiting_cons hw
    exact ih (stage_step s h1 hx) h2 hw

theorem sync_tasks (t : Tab) : t.sync.tasks = t.tasks := by unfold Tab.sync; split <;> rfl

theorem chans_sync (t : Tab) : chans t.sync = chans t := by unfold chans; rw [sync_tasks]

theorem starts_stage {env : Env} {t t1 : Tab} {c : Cmd} {ok : Bool} {n : Nat}
    (h : step env t (.cmd c ok) = some t1) (hs : Starts t t1 n) : Stage n t1 := by
  simp only [step, Option.map_eq_some_iff] at h
  obtain ⟨t', h1, rfl⟩ := h
  obtain ⟨hn, ha⟩ := hs
  have he := command_eff h1
  have ha : (chans t')[n]? = some .empty := by
    rw [← chans_sync]
    unfold chans
    rw [List.getElem?_map]
    exact ha
  have hlen := chans_length t
  cases he.kind with
  | none hc _ _ _ _ => rw [hc, List.getElem?_eq_none (by omega)] at ha; cases ha
  | drop hc _ _ _ _ => rw [hc, List.getElem?_eq_none (by omega)] at ha; cases ha
  | same hc _ _ _ _ =>
    rw [hc, ← hn, ← hlen] at ha
    simp at ha
  | start hc hl hev h3 h4 =>
    rw [hn] at hl
    cases hp : t'.pendingRx with
    | none =>
      have : t'.sync = { t' with pendingRx := some n, load := some (n, false) } := by
        simp only [Tab.sync, hp, hl]
      rw [this]
      exact .flies rfl rfl
    | some p =>
      have : t'.sync = t' := by
        unfold Tab.sync
        split
        · rename_i h2 _; rw [hp] at h2; cases h2
        · rfl
      rw [this]
      exact .waits (by simp [hp]) hl

/-! ## Waiting when idle -/

theorem idle_step {env : Env} {t t' : Tab} {x : Step} (i : Idle t) (h : step env t x = some t')
    (hc : ∀ c ok, x ≠ .cmd c ok) : Idle t' ∧ t'.isLoading = t.isLoading ∧ t'.doc = t.doc ∧ t'.cur = t.cur := by
  by_cases hd : x = .deliver
  · subst hd
    simp only [step, deliver_idle i.1, Option.map_some, Option.some.injEq] at h
    rw [sync_idle i.1 i.2] at h
    subst h
    exact ⟨i, rfl, rfl, rfl⟩
  · obtain ⟨e, hcur⟩ := step_env1 h hc hd
    exact ⟨⟨by rw [e.pendingRx]; exact i.1, by rw [e.load]; exact i.2⟩, e.loading, e.doc, hcur⟩

theorem idle_run {env : Env} {xs : List Step} {t t' : Tab} (i : Idle t) (h : run env t xs = some t')
    (hw : Waiting xs) : Idle t' ∧ t'.isLoading = t.isLoading ∧ t'.doc = t.doc ∧ t'.cur = t.cur := by
  induction xs generalizing t with
  | nil => cases h; exact ⟨i, rfl, rfl, rfl⟩
  | cons x xs ih =>
    obtain ⟨t1, h1, h2⟩ := run_cons h
    obtain ⟨hx, hw⟩ := waiting_cons hw
    obtain ⟨a, b, c, d⟩ := idle_step i h1 hx
    obtain ⟨a', b', c', d'⟩ := ih a h2 hw
    exact ⟨a', b'.trans b, c'.trans c, d'.trans d⟩

/-! ## The document never goes back -/

theorem sync_doc (t : Tab) : t.sync.doc = t.doc := by unfold Tab.sync; split <;> rfl

theorem doc_step {env : Env} {t t' : Tab} {x : Step} (i : Inv t) (h : step env t x = some t') :
    t'.doc = t.doc ∨ ∃ n u ti, t.pendingRx = some n ∧ (chans t)[n]? = some (.sent (.ok u ti)) ∧ t'.doc = some n := by
  cases x with
  | cmd c ok =>
    simp only [step, Option.map_eq_some_iff] at h
    obtain ⟨t1, h1, rfl⟩ := h
    left
    rw [sync_doc]
    exact (command_eff h1).doc
  | deliver =>
    simp only [step, Option.map_eq_some_iff] at h
    obtain ⟨t1, h1, rfl⟩ := h
    rw [sync_doc]
    cases deliver_delivered h1 with
    | none he hw => subst he; exact Or.inl rfl
    | dropped m hm hmc he => subst he; exact Or.inl rfl
    | sent m r hm hmc ha =>
      cases r with
      | ok u ti => exact Or.inr ⟨m, u, ti, hm, hmc, ha.doc⟩
      | err => exact Or.inl ha.doc
      | download u => exact Or.inl ha.doc
  | tick => cases h; exact Or.inl (tick_same env t).doc
  | userScroll x y => cases h; exact Or.inl rfl
  | layout p v => cases h; exact Or.inl rfl
  | respond n => cases h; exact Or.inl (respond_step t n).doc
  | abort n => cases h; exact Or.inl (abort_step t n).doc
  | finish n o => cases h; exact Or.inl (finish_step t n o).doc

theorem doc_handled {t : Tab} (i : Inv t) {m : Nat} (h : t.doc = some m) :
    m ∈ t.handled ∧ ∃ u ti, (chans t)[m]? = some (.sent (.ok u ti)) := by
  rw [i.shown] at h
  have := List.mem_of_getLast? h
  obtain ⟨h1, h2⟩ := List.mem_filter.1 this
  refine ⟨h1, ?_⟩
  unfold isOk at h2
  split at h2
  · rename_i u ti hh; exact ⟨u, ti, hh⟩
  · cases h2

/-! ## A navigation that has no response yet -/

/-- navigation `n` has not got its response, or has ended without one -/
def NoResponse (n : Nat) (t : Tab) : Prop :=
  ((chans t)[n]? = some .empty ∧ (resps t)[n]? = some false) ∨ (chans t)[n]? = some (.sent .err)

theorem prefix_get {α : Type} {l l' : List α} {n : Nat} {a : α} (h : l <+: l') (hn : l[n]? = some a) : l'[n]? = some a := by
  obtain ⟨r, rfl⟩ := h
  rw [List.getElem?_append_left (List.getElem?_eq_some_iff.1 hn).1, hn]

theorem eff_prefix {t t' : Tab} (h : Eff t t') : chans t <+: chans t' := by
  cases h.kind with
  | none hc _ _ _ _ => rw [hc]; exact List.prefix_rfl
  | drop hc _ _ _ _ => rw [hc]; exact List.prefix_rfl
  | same hc _ _ _ _ => rw [hc]; exact List.prefix_append _ _
  | start hc _ _ _ _ => rw [hc]; exact List.prefix_append _ _

theorem resps_sync (t : Tab) : resps t.sync = resps t := by unfold resps; rw [sync_tasks]

theorem emitHistory_tasks {t t' : Tab} (h : t.emitHistory = some t') : t'.tasks = t.tasks := by
  simp only [Tab.emitHistory, Option.bind_eq_bind, Option.bind_eq_some_iff] at h
  obtain ⟨s, _, h⟩ := h
  cases h
  rfl

theorem onResult_tasks {env : Env} {t t' : Tab} {n : Nat} {r : Result} (h : onResult env t n r = some t') :
    t'.tasks = t.tasks := by
  cases r with
  | ok u ti =>
    simp only [onResult, Option.bind_eq_bind, Option.bind_eq_some_iff] at h
    obtain ⟨hh, _, h⟩ := h
    have := emitHistory_tasks h
    exact this
  | err => cases h; rfl
  | download u => cases h; rfl

theorem deliver_tasks {env : Env} {t t' : Tab} (h : deliver env t = some t') : t'.tasks = t.tasks := by
  unfold deliver at h
  split at h
  · cases h; rfl
  · split at h
    · cases h; rfl
    · split at h
      · cases h; rfl
      · have := onResult_tasks h
        exact this
      · cases h; rfl

theorem tick_tasks (env : Env) (t : Tab) : (tick env t).tasks = t.tasks := by
  unfold tick
  split
  · split
    · split
      · rfl
      · split <;> rfl
    · rfl
  · rfl

theorem task_iff (t : Tab) (n : Nat) :
    NoResponse n t ↔ ∃ k, t.tasks[n]? = some k ∧ ((k.chan = .empty ∧ k.responded = false) ∨ k.chan = .sent .err) := by
  unfold NoResponse chans resps
  rw [List.getElem?_map, List.getElem?_map]
  cases t.tasks[n]? with
  | none => simp
  | some k => simp

theorem noResponse_set {t : Tab} {n m : Nat} {k k' : Task} {ts : List Task} (hn : NoResponse n t)
    (hk : t.tasks[m]? = some k) (hts : ts = t.tasks.set m k')
    (hkk : m = n → ((k'.chan = .empty ∧ k'.responded = false) ∨ k'.chan = .sent .err))
    {t' : Tab} (ht : t'.tasks = ts) : NoResponse n t' := by
  rw [task_iff] at hn ⊢
  rw [ht, hts]
  by_cases e : m = n
  · subst e
    exact ⟨k', List.getElem?_set_self (List.getElem?_eq_some_iff.1 hk).1, hkk rfl⟩
  · rw [List.getElem?_set_ne e]
    exact hn

theorem noResponse_step {env : Env} {t t' : Tab} {x : Step} {n : Nat} (hn : NoResponse n t)
    (h : step env t x = some t') (hx : x ≠ .respond n) : NoResponse n t' := by
  cases x with
  | cmd c ok =>
    simp only [step, Option.map_eq_some_iff] at h
    obtain ⟨t1, h1, rfl⟩ := h
    have he := command_eff h1
    unfold NoResponse
    rw [chans_sync, resps_sync]
    rcases hn with ⟨a, b⟩ | a
    · exact Or.inl ⟨prefix_get (eff_prefix he) a, prefix_get he.resps b⟩
    · exact Or.inr (prefix_get (eff_prefix he) a)
  | deliver =>
    simp only [step, Option.map_eq_some_iff] at h
    obtain ⟨t1, h1, rfl⟩ := h
    rw [task_iff] at hn ⊢
    rw [sync_tasks, deliver_tasks h1]
    exact hn
  | tick => cases h; rw [task_iff] at hn ⊢; rw [tick_tasks]; exact hn
  | userScroll x y => cases h; exact hn
  | layout p v => cases h; exact hn
  | respond m =>
    cases h
    unfold respond
    split
    · exact hn
    · rename_i k hk
      split
      · exact hn
      · refine noResponse_set hn (running_some hk).1 rfl ?_ rfl
        intro e; subst e; exact absurd rfl hx
  | abort m =>
    cases h
    unfold abort
    split
    · exact hn
    · rename_i k hk
      split
      · exact hn
      · exact noResponse_set hn (running_some hk).1 rfl (fun _ => Or.inr rfl) rfl
  | finish m o =>
    cases h
    unfold finish
    split
    · exact hn
    · rename_i k hk
      split
      · exact hn
      · rename_i hr
        have hne : m ≠ n := by
          intro e
          subst e
          rw [task_iff] at hn
          obtain ⟨k', h1, h2⟩ := hn
          obtain ⟨h3, h4⟩ := running_some hk
          rw [h3] at h1
          cases h1
          rcases h2 with ⟨_, h2⟩ | h2
          · simp [h2] at hr
          · rw [h4] at h2; cases h2
        split
        · exact noResponse_set hn (running_some hk).1 rfl (fun e => absurd e hne) rfl
        · exact noResponse_set hn (running_some hk).1 rfl (fun e => absurd e hne) rfl
        · exact noResponse_set hn (running_some hk).1 rfl (fun e => absurd e hne) rfl

theorem noResponse_run {env : Env} {xs : List Step} {t t' : Tab} {n : Nat} (hn : NoResponse n t)
    (h : run env t xs = some t') (hx : Step.respond n ∉ xs) : NoResponse n t' := by
  induction xs generalizing t with
  | nil => cases h; exact hn
  | cons x xs ih =>
    obtain ⟨t1, h1, h2⟩ := run_cons h
    simp only [List.mem_cons, not_or] at hx
    exact ih (noResponse_step hn h1 (fun e => hx.1 e.symm)) h2 hx.2

/-! ## Visits -/

theorem webPage_congr {t t' : Tab} {n : Nat} (h : (chans t')[n]? = (chans t)[n]?) : webPage t' n = webPage t n := by
  unfold webPage; rw [answer_eq, answer_eq, h]

theorem pagesShown_congr {t t' : Tab} (he : numbered t'.events = numbered t.events)
    (h : ∀ n, (Mark.done, n) ∈ numbered t.events → (chans t')[n]? = (chans t)[n]?) : pagesShown t' = pagesShown t := by
  unfold pagesShown
  rw [he]
  apply List.filterMap_congr
  rintro ⟨m, n⟩ hm
  split
  · rename_i e
    simp only at e
    subst e
    exact webPage_congr (h n hm)
  · rfl

def Vis (t : Tab) : Prop := List.Forall₂ VisitOf t.visits (pagesShown t)

theorem pagesShown_more {t t' : Tab} {es : List (Mark × Nat)} (he : numbered t'.events = numbered t.events ++ es)
    (h : ∀ n, (Mark.done, n) ∈ numbered t.events → (chans t')[n]? = (chans t)[n]?) :
    pagesShown t' = pagesShown t ++ es.filterMap fun p => if p.1 = .done then webPage t' p.2 else none := by
  unfold pagesShown
  rw [he, List.filterMap_append]
  congr 1
  apply List.filterMap_congr
  rintro ⟨m, n⟩ hm
  split
  · rename_i e
    simp only at e
    subst e
    exact webPage_congr (h n hm)
  · rfl

theorem sync_visits (t : Tab) : t.sync.visits = t.visits := by unfold Tab.sync; split <;> rfl

theorem sync_events (t : Tab) : t.sync.events = t.events := by unfold Tab.sync; split <;> rfl

theorem vis_sync {t : Tab} (h : Vis t) : Vis t.sync := by
  unfold Vis
  rw [sync_visits, pagesShown_congr (t := t) (by rw [sync_events]) (fun n _ => by rw [chans_sync])]
  exact h

theorem done_keep {t : Tab} (i : Inv t) {n : Nat} (h : (Mark.done, n) ∈ numbered t.events) :
    ∃ c, (chans t)[n]? = some c ∧ c ≠ .empty := by
  obtain ⟨c, h1, h2, _⟩ := i.truth _ _ h (by simp)
  exact ⟨c, h1, h2⟩

theorem vis_taskStep {t t' : Tab} (h : TaskStep t t') (i : Inv t) (v : Vis t) : Vis t' := by
  have hk : ∀ n, (Mark.done, n) ∈ numbered t.events → (chans t')[n]? = (chans t)[n]? := by
    intro n hn
    obtain ⟨c, h1, h2⟩ := done_keep i hn
    rw [h.keep h1 h2, h1]
  cases h with
  | none h =>
    unfold Vis
    rw [h.visits, pagesShown_congr h.events hk]
    exact v
  | ends n c hn hc hcs hl hp hh hd hv hlo her he =>
    unfold Vis
    rw [hv]
    rcases he with he | ⟨_, he⟩
    · rw [pagesShown_congr he hk]; exact v
    · rw [pagesShown_more he hk]
      have v' : List.Forall₂ VisitOf t.visits (pagesShown t) := v
      simpa using v'

theorem vis_eff {t t' : Tab} (h : Eff t t') (i : Inv t) (v : Vis t) : Vis t' := by
  have hk : ∀ n, (Mark.done, n) ∈ numbered t.events → (chans t')[n]? = (chans t)[n]? := by
    intro n hn
    obtain ⟨c, h1, h2⟩ := done_keep i hn
    rw [prefix_get (eff_prefix h) h1, h1]
  unfold Vis
  rw [h.visits]
  cases h.kind with
  | none hc hl he _ _ => rw [pagesShown_congr he hk]; exact v
  | drop hc hl he _ _ => rw [pagesShown_congr he hk]; exact v
  | same hc hl he _ _ =>
    rw [pagesShown_more he hk]
    have : webPage t' t.tasks.length = none := by
      unfold webPage
      rw [answer_eq, hc, ← chans_length]
      simp
    have v' : List.Forall₂ VisitOf t.visits (pagesShown t) := v
    simpa [this] using v'
  | start hc hl he _ _ =>
    rw [pagesShown_more he hk]
    have v' : List.Forall₂ VisitOf t.visits (pagesShown t) := v
    simpa using v'

theorem vis_delivered {t t' : Tab} (h : Delivered t t') (i : Inv t) (v : Vis t) : Vis t' := by
  cases h with
  | none he hw => rw [he]; exact v
  | dropped n hn hc he => subst he; exact v
  | sent n r hn hc ha =>
    have hch : chans t' = chans t := ha.chans
    unfold Vis
    rw [pagesShown_more (t := t) ha.events (fun m _ => by rw [hch])]
    have hvis : t'.visits = t.visits ++ visitOf t.title r := ha.visits
    rw [hvis]
    have hans : answer t' n = some (.sent r) := by rw [answer_eq, hch]; exact hc
    refine List.rel_append v ?_
    cases r with
    | err => simp [visitOf, markOf]
    | download u => simp [visitOf, markOf]
    | ok u ti =>
      have hw : webPage t' n = if u.web then some (u, ti) else none := by
        unfold webPage
        rw [hans]
        simp only [Url.web, decide_eq_true_eq]
      simp only [List.filterMap_cons, List.filterMap_nil, markOf, if_true, hw, visitOf]
      cases u.web with
      | true =>
        simp only [if_true]
        refine .cons ⟨rfl, ?_⟩ .nil
        intro s hs
        simp only at hs
        subst hs
        rfl
      | false => simp

theorem vis_step {env : Env} {t t' : Tab} {x : Step} (i : Inv t) (v : Vis t) (h : step env t x = some t') : Vis t' := by
  cases x with
  | cmd c ok =>
    simp only [step, Option.map_eq_some_iff] at h
    obtain ⟨t1, h1, rfl⟩ := h
    exact vis_sync (vis_eff (command_eff h1) i v)
  | deliver =>
    simp only [step, Option.map_eq_some_iff] at h
    obtain ⟨t1, h1, rfl⟩ := h
    exact vis_sync (vis_delivered (deliver_delivered h1) i v)
  | tick => cases h; exact vis_taskStep (.none (tick_same env t).toSame0) i v
  | userScroll x y => cases h; exact v
  | layout p v' => cases h; exact v
  | respond n => cases h; exact vis_taskStep (respond_step t n) i v
  | abort n => cases h; exact vis_taskStep (abort_step t n) i v
  | finish n o => cases h; exact vis_taskStep (finish_step t n o) i v

theorem vis_run {env : Env} {xs : List Step} {t t' : Tab} (i : Inv t) (v : Vis t) (h : run env t xs = some t') : Vis t' := by
  induction xs generalizing t with
  | nil => cases h; exact v
  | cons x xs ih =>
    obtain ⟨t1, h1, h2⟩ := run_cons h
    exact ih (inv_step i h1) (vis_step i v h1) h2

/-! ## Orderly schedules -/

/-- a navigation is in flight exactly when the tab is loading; it will be answered; the others have been reported -/
structure Tidy (t : Tab) : Prop where
  loading : t.isLoading = true ↔ t.pendingRx ≠ none
  only : ∀ n, t.load ≠ some (n, true)
  answered : ∀ n, t.pendingRx = some n → (chans t)[n]? ≠ some .dropped
  reported : ∀ n, n < t.tasks.length → Ended t n ∨ t.pendingRx = some n

theorem tidy_new (title : Str) : Tidy (Tab.new title) := by
  constructor <;> simp [Tab.new]

theorem ended_mono {t t' : Tab} {n : Nat} {es : List (Mark × Nat)} (he : numbered t'.events = numbered t.events ++ es)
    (h : Ended t n) : Ended t' n := by
  obtain ⟨m, h1, h2⟩ := h
  exact ⟨m, h1, by rw [he]; simp [h2]⟩

theorem ended_congr {t t' : Tab} {n : Nat} (he : numbered t'.events = numbered t.events) (h : Ended t n) : Ended t' n :=
  ended_mono (es := []) (by rw [he, List.append_nil]) h

theorem tidy_setTitle {t : Tab} (i : Tidy t) (s : Str) : Tidy { t with title := s } := ⟨i.1, i.2, i.3, i.4⟩

theorem tidy_sync {t : Tab} (i : Tidy t) : t.sync = t := by
  unfold Tab.sync
  split
  · rename_i n _ h2
    exact absurd h2 (i.only n)
  · rfl

theorem tidy_idle_eff {t t' : Tab} (h : Eff t t') (i : Tidy t) (hi : Idle t) : Tidy t'.sync := by
  have hlen := chans_length t
  have hlen' := chans_length t'
  have hnl : t.isLoading = false := by
    cases hb : t.isLoading with
    | false => rfl
    | true => exact absurd hi.1 (i.loading.1 hb)
  have hp : t'.pendingRx = none := by rw [h.pendingRx]; exact hi.1
  cases h.kind with
  | none hc hl he h1 h2 =>
    have hlt : t'.tasks.length = t.tasks.length := by rw [← hlen, ← hlen', hc]
    have hln : ∀ n, t'.load ≠ some (n, true) := by rw [hl]; exact hi.2
    rw [sync_idle hp hln]
    refine ⟨?_, hln, by simp [hp], ?_⟩
    · rw [h1, hp, hnl]; simp
    · intro n hn
      rw [hlt] at hn
      rcases i.reported n hn with h3 | h3
      · exact Or.inl (ended_congr he h3)
      · rw [hi.1] at h3; cases h3
  | drop hc hl he h1 h2 =>
    have hlt : t'.tasks.length = t.tasks.length := by rw [← hlen, ← hlen', hc]
    have hln : ∀ n, t'.load ≠ some (n, true) := by rw [hl]; simp
    rw [sync_idle hp hln]
    refine ⟨?_, hln, by simp [hp], ?_⟩
    · rw [h1, hp, hnl]; simp
    · intro n hn
      rw [hlt] at hn
      rcases i.reported n hn with h3 | h3
      · exact Or.inl (ended_congr he h3)
      · rw [hi.1] at h3; cases h3
  | same hc hl he h1 h2 =>
    have hlt : t'.tasks.length = t.tasks.length + 1 := by rw [← hlen, ← hlen', hc]; simp
    have hln : ∀ n, t'.load ≠ some (n, true) := by rw [hl]; exact hi.2
    rw [sync_idle hp hln]
    refine ⟨?_, hln, by simp [hp], ?_⟩
    · rw [h1, hp, hnl]; simp
    · intro n hn
      rw [hlt] at hn
      left
      by_cases e : n = t.tasks.length
      · subst e
        exact ⟨.done, by simp, by rw [he]; simp⟩
      · rcases i.reported n (by omega) with h3 | h3
        · exact ended_mono he h3
        · rw [hi.1] at h3; cases h3
  | start hc hl he h1 h2 =>
    have hlt : t'.tasks.length = t.tasks.length + 1 := by rw [← hlen, ← hlen', hc]; simp
    have e : t'.sync = { t' with pendingRx := some t.tasks.length, load := some (t.tasks.length, false) } := by
      simp only [Tab.sync, hp, hl]
    rw [e]
    refine ⟨by simp [h1], by simp, ?_, ?_⟩
    · intro n hn
      simp only [Option.some.injEq] at hn
      subst hn
      have : chans { t' with pendingRx := some t.tasks.length, load := some (t.tasks.length, false) } = chans t' := rfl
      rw [this, hc, ← hlen]
      simp
    · intro n hn
      simp only at hn
      rw [hlt] at hn
      by_cases e : n = t.tasks.length
      · exact Or.inr (by simp [e])
      · rcases i.reported n (by omega) with h3 | h3
        · exact Or.inl (ended_mono (t' := { t' with pendingRx := some t.tasks.length, load := some (t.tasks.length, false) }) he h3)
        · rw [hi.1] at h3; cases h3

theorem tidy_delivered {t t' : Tab} (h : Delivered t t') (i : Tidy t) : Tidy t' := by
  cases h with
  | none he hw => rw [he]; exact i
  | dropped n hn hc he => exact absurd hc (i.answered n hn)
  | sent n r hn hc ha =>
    have hch : chans t' = chans t := ha.chans
    have hlen : t'.tasks.length = t.tasks.length := by rw [← chans_length, ← chans_length, hch]
    have hp : t'.pendingRx = none := ha.pendingRx
    have hev : numbered t'.events = numbered t.events ++ [(markOf r, n)] := ha.events
    refine ⟨by rw [ha.loading, hp]; simp, ?_, by simp [hp], ?_⟩
    · rw [ha.load]; exact i.only
    · intro m hm
      left
      rw [hlen] at hm
      rcases i.reported m hm with h3 | h3
      · exact ended_mono hev h3
      · rw [hn] at h3
        cases h3
        exact ⟨markOf r, markOf_ne r, by rw [hev]; simp⟩

theorem tidy_taskStep {t t' : Tab} (h : TaskStep t t') (i : Tidy t)
    (hd : ∀ n : Nat, (chans t)[n]? = some Chan.empty → (chans t')[n]? ≠ some Chan.dropped) : Tidy t' := by
  have hr : ∀ n, n < t.tasks.length → Ended t' n ∨ t'.pendingRx = some n := by
    intro n hn
    rw [h.pendingRx]
    rcases i.reported n hn with h3 | h3
    · left
      cases h with
      | none h => exact ended_congr h.events h3
      | ends n c hn hc hcs hl hp hh hdo hv hlo her he =>
        rcases he with he | ⟨_, he⟩
        · exact ended_congr he h3
        · exact ended_mono he h3
    · exact Or.inr h3
  have hlen : t'.tasks.length = t.tasks.length := by
    rw [← chans_length, ← chans_length]
    cases h with
    | none h => rw [h.chans]
    | ends n c hn hc hcs hl hp hh hdo hv hlo her he => rw [hcs, List.length_set]
  refine ⟨by rw [h.loading, h.pendingRx]; exact i.loading, by rw [h.load]; exact i.only, ?_, by rw [hlen]; exact hr⟩
  intro n hn
  rw [h.pendingRx] at hn
  cases hc : (chans t)[n]? with
  | none =>
    rw [List.getElem?_eq_none]
    · simp
    · rw [chans_length, hlen, ← chans_length]
      exact List.getElem?_eq_none_iff.1 hc
  | some c =>
    by_cases e : c = .empty
    · subst e
      exact hd n hc
    · rw [h.keep hc e]
      intro he
      cases he
      exact i.answered n hn hc

theorem chans_set_ne {t : Tab} {m : Nat} {k : Task} {ts : List Task} (hts : ts = t.tasks.set m k)
    (hk : k.chan ≠ .dropped) (n : Nat) (h : (chans t)[n]? = some .empty) : (ts.map Task.chan)[n]? ≠ some .dropped := by
  rw [hts, chans_set, List.getElem?_set]
  split
  · split
    · simpa using hk
    · simp
  · unfold chans at h
    rw [h]; simp

theorem tidy_step {env : Env} {t t' : Tab} {x : Step} (i : Tidy t) (h : step env t x = some t')
    (hc : ∀ c ok, x = .cmd c ok → Idle t ∨ ∃ s, c = .setTitle s)
    (hb : ∀ n u, x ≠ .finish n (.blocked u)) (hn : ∀ n, x ≠ .finish n .nothing) : Tidy t' := by
  cases x with
  | cmd c ok =>
    simp only [step, Option.map_eq_some_iff] at h
    obtain ⟨t1, h1, rfl⟩ := h
    rcases hc c ok rfl with hi | ⟨s, rfl⟩
    · exact tidy_idle_eff (command_eff h1) i hi
    · simp only [command, Option.some.injEq] at h1
      subst h1
      rw [tidy_sync (tidy_setTitle i s)]
      exact tidy_setTitle i s
  | deliver =>
    simp only [step, Option.map_eq_some_iff] at h
    obtain ⟨t1, h1, rfl⟩ := h
    have := tidy_delivered (deliver_delivered h1) i
    rw [tidy_sync this]
    exact this
  | tick =>
    cases h
    exact tidy_taskStep (.none (tick_same env t).toSame0) i (by rw [(tick_same env t).chans]; intro n hn; rw [hn]; simp)
  | userScroll x y => cases h; exact ⟨i.1, i.2, i.3, i.4⟩
  | layout p v' => cases h; exact ⟨i.1, i.2, i.3, i.4⟩
  | respond n =>
    cases h
    refine tidy_taskStep (respond_step t n) i ?_
    unfold respond
    split
    · intro m hm; rw [hm]; simp
    · rename_i k hk
      split
      · intro m hm; rw [hm]; simp
      · exact fun m hm => chans_set_ne rfl (by rw [(running_some hk).2]; simp) m hm
  | abort n =>
    cases h
    refine tidy_taskStep (abort_step t n) i ?_
    unfold abort
    split
    · intro m hm; rw [hm]; simp
    · rename_i k hk
      split
      · intro m hm; rw [hm]; simp
      · exact fun m hm => chans_set_ne rfl (by simp) m hm
  | finish n o =>
    cases h
    refine tidy_taskStep (finish_step t n o) i ?_
    unfold finish
    split
    · intro m hm; rw [hm]; simp
    · rename_i k hk
      split
      · intro m hm; rw [hm]; simp
      · split
        · exact fun m hm => chans_set_ne rfl (by simp) m hm
        · exact absurd rfl (hb _ _)
        · exact absurd rfl (hn _)

theorem tidy_run {env : Env} {xs : List Step} {t t' : Tab} (i : Tidy t) (ho : Orderly env t xs)
    (h : run env t xs = some t') : Tidy t' := by
  induction ho with
  | nil t => cases h; exact i
  | cons h1 hc hb hn _ ih =>
    obtain ⟨t1, h2, h3⟩ := run_cons h
    rw [h1] at h2
    cases h2
    exact ih (tidy_step i h1 hc hb hn) h3

end Verif.TabNav
