import Mathlib.Tactic.Linarith
import Verif.Composite.Props
import Verif.TabNav.Lemmas3
set_option linter.unusedVariables false

/-! Scroll offsets in the history. -/
namespace Verif.TabNav
open Verif.History (Hist Entry)

/-! ## What happens to the saved offsets -/

/-- entries keep their offsets -/
def Still (h h' : Hist) : Prop :=
  ∀ (e : Nat) (a : Entry), h.entries[e]? = some a → ∃ a' : Entry, h'.entries[e]? = some a' ∧ a'.scroll = a.scroll

/-- entries keep their offsets, but the current one may get `p` -/
def Kept (p : Int × Int) (h h' : Hist) : Prop :=
  ∀ (e : Nat) (a : Entry), h.entries[e]? = some a → ∃ a' : Entry, h'.entries[e]? = some a' ∧
    (a'.scroll = a.scroll ∨ (h.current = some e ∧ a'.scroll = p))

/-- the current entry has got `p` -/
def Saved (p : Int × Int) (h h' : Hist) : Prop :=
  ∀ (e : Nat), h.current = some e → ∃ a' : Entry, h'.entries[e]? = some a' ∧ a'.scroll = p

theorem Still.rfl {h : Hist} : Still h h := fun e a ha => ⟨a, ha, Eq.refl _⟩

theorem Still.trans {a b c : Hist} (h : Still a b) (k : Still b c) : Still a c := by
  intro e x hx
  obtain ⟨y, hy, e1⟩ := h e x hx
  obtain ⟨z, hz, e2⟩ := k e y hy
  exact ⟨z, hz, e2.trans e1⟩

theorem Still.kept {p : Int × Int} {a b : Hist} (h : Still a b) : Kept p a b := by
  intro e x hx
  obtain ⟨y, hy, e1⟩ := h e x hx
  exact ⟨y, hy, Or.inl e1⟩

theorem Kept.still {p : Int × Int} {a b c : Hist} (h : Kept p a b) (k : Still b c) : Kept p a c := by
  intro e x hx
  obtain ⟨y, hy, e1⟩ := h e x hx
  obtain ⟨z, hz, e2⟩ := k e y hy
  exact ⟨z, hz, by rw [e2]; exact e1⟩

theorem Saved.still {p : Int × Int} {a b c : Hist} (h : Saved p a b) (k : Still b c) : Saved p a c := by
  intro e he
  obtain ⟨y, hy, e1⟩ := h e he
  obtain ⟨z, hz, e2⟩ := k e y hy
  exact ⟨z, hz, e2.trans e1⟩

theorem modify_still {es es' : List Entry} {cur cur' : Option Nat} {f : Entry → Entry} (hf : ∀ e, (f e).scroll = e.scroll)
    {t : Option Nat} (h : History.modifyCurrent es t f = some es') : Still ⟨es, cur⟩ ⟨es', cur'⟩ := by
  intro e a ha
  simp only at ha ⊢
  refine ⟨if t = some e then f a else a, by rw [History.modifyCurrent_get h, ha]; rfl, ?_⟩
  split
  · exact hf a
  · rfl

theorem setScroll_spec {h h' : Hist} {x y : Int} (hs : History.setCurrentScroll h x y = some h')
    (hc : ∀ c, h.current = some c → c < h.entries.length) :
    h'.current = h.current ∧ Kept (x, y) h h' ∧ Saved (x, y) h h' := by
  simp only [History.setCurrentScroll, Option.map_eq_some_iff] at hs
  obtain ⟨es, hm, rfl⟩ := hs
  have hg := History.modifyCurrent_get hm
  refine ⟨rfl, ?_, ?_⟩
  · intro e a ha
    refine ⟨if h.current = some e then { a with scroll := (x, y) } else a, by rw [hg, ha]; rfl, ?_⟩
    split
    · rename_i hh; exact Or.inr ⟨hh, rfl⟩
    · exact Or.inl rfl
  · intro e he
    have hl := hc e he
    refine ⟨{ h.entries[e] with scroll := (x, y) }, ?_, rfl⟩
    simp only
    rw [hg, List.getElem?_eq_getElem hl]
    simp [he]

theorem push_still {h : Hist} {r : Hist × Nat} {u : Str} {ti : Option Str} (hi : History.Inv h)
    (hs : History.push h u ti = some r) : Still h r.1 := by
  obtain ⟨_, _, _, _, hold⟩ := History.push_spec (h' := r.1) (id := r.2) hs hi.curLt
  intro e a ha
  have hl := (List.getElem?_eq_some_iff.1 ha).1
  have := hold e hl
  rw [ha] at this
  refine ⟨_, this, ?_⟩
  split <;> rfl

theorem replaceUrl_still {h h' : Hist} {u : Str} (hs : History.replaceCurrentUrl h u = some h') :
    Still h h' ∧ h'.current = h.current := by
  simp only [History.replaceCurrentUrl, Option.map_eq_some_iff] at hs
  obtain ⟨es, hm, rfl⟩ := hs
  exact ⟨modify_still (cur := h.current) (fun e => by rfl) hm, rfl⟩

theorem setTitle_still {h h' : Hist} {u : Option Str} (hs : History.setCurrentTitle h u = some h') :
    Still h h' ∧ h'.current = h.current := by
  simp only [History.setCurrentTitle, Option.map_eq_some_iff] at hs
  obtain ⟨es, hm, rfl⟩ := hs
  exact ⟨modify_still (cur := h.current) (fun e => by rfl) hm, rfl⟩

theorem goBack_still {h : Hist} {r : Hist × Option Nat} (hi : History.Inv h) (hs : History.goBack h = some r) :
    Still h r.1 ∧ ∀ e, r.2 = some e → r.1.current = some e := by
  have := History.goBack_spec (h' := r.1) (r := r.2) hi hs
  refine ⟨?_, fun e he => (this.2.2 e he).1⟩
  intro e a ha
  exact ⟨a, by rw [this.1]; exact ha, rfl⟩

theorem goForward_still {h : Hist} {r : Hist × Option Nat} {x : Option Nat} (hi : History.Inv h)
    (hs : History.goForward h x = some r) : Still h r.1 ∧ ∀ e, r.2 = some e → r.1.current = some e := by
  obtain ⟨h1, h2⟩ := History.goForward_spec (h' := r.1) (r := r.2) hi hs
  cases hr : r.2 with
  | none => rw [h1 hr]; exact ⟨.rfl, by simp⟩
  | some k =>
    obtain ⟨c, e1, es, _, _, _, hm, h3⟩ := h2 k hr
    rw [h3]
    exact ⟨modify_still (cur := h.current) (fun e => by rfl) hm, fun e he => he⟩

theorem goTo_still {h : Hist} {r : Hist × Option Nat} {x : Nat} (hi : History.Inv h)
    (hs : History.goTo h x = some r) : Still h r.1 ∧ ∀ e, r.2 = some e → r.1.current = some e := by
  obtain ⟨h1, h2⟩ := History.goTo_spec (h' := r.1) (r := r.2) hi hs
  cases hr : r.2 with
  | none => rw [(h1 hr).1]; exact ⟨.rfl, by simp⟩
  | some k =>
    obtain ⟨rfl, e1, es, _, hm, h3⟩ := h2 k hr
    rw [h3]
    exact ⟨modify_still (cur := h.current) (fun e => by rfl) hm, fun e he => he⟩

theorem emitHistory_hist {t t' : Tab} (h : t.emitHistory = some t') : t'.hist = t.hist := by
  simp only [Tab.emitHistory, Option.bind_eq_bind, Option.bind_eq_some_iff] at h
  obtain ⟨s, _, h⟩ := h
  cases h
  rfl

theorem leave_true {t t' : Tab} (hr : History.Reachable t.hist) (h : t.leave true = some t') :
    t'.hist.current = t.hist.current ∧ Kept t.scroll t.hist t'.hist ∧ Saved t.scroll t.hist t'.hist := by
  unfold Tab.leave at h
  rw [Option.bind_eq_some_iff] at h
  obtain ⟨hh, h1, h2⟩ := h
  rw [if_pos rfl] at h1
  cases h2
  rw [cancelActive_hist]
  exact setScroll_spec h1 (History.inv_reachable hr).curLt

theorem leave_false {t t' : Tab} (h : t.leave false = some t') : t'.hist = t.hist := by
  unfold Tab.leave at h
  rw [Option.bind_eq_some_iff] at h
  obtain ⟨hh, h1, h2⟩ := h
  simp only [Bool.false_eq_true, if_false, Option.some.injEq] at h1
  cases h2
  rw [cancelActive_hist]
  exact h1.symm

theorem leave_more {t t' : Tab} {b : Bool} (h : t.leave b = some t') :
    t'.pendingScroll = none ∧ t'.scroll = (0, 0) ∧ t'.ctx = (0, 0) := by
  unfold Tab.leave at h
  rw [Option.bind_eq_some_iff] at h
  obtain ⟨hh, h1, h2⟩ := h
  cases h2
  unfold Tab.cancelActive
  split <;> exact ⟨rfl, rfl, rfl⟩

theorem navigateSame_chans {env : Env} {t t' : Tab} {url : Url} {i : Intent} (h : navigateSame env t url i = some t') :
    chans t' = chans t ++ [.dropped] := by
  simp only [navigateSame, Option.bind_eq_bind, Option.bind_eq_some_iff] at h
  obtain ⟨hh, _, h⟩ := h
  rw [(emitHistory_same h).chans]
  split <;> simp [chans, Tab.emit, Tab.applyScroll]

theorem navigateSame_hist {env : Env} {t t' : Tab} {url : Url} {i : Intent} (hr : History.Reachable t.hist)
    (h : navigateSame env t url i = some t') :
    Kept t.scroll t.hist t'.hist ∧ (i.isTraverse = true → t'.hist = t.hist) := by
  simp only [navigateSame, Option.bind_eq_bind, Option.bind_eq_some_iff] at h
  obtain ⟨hh, h1, h⟩ := h
  have e : t'.hist = hh := by
    rw [emitHistory_hist h]
    split <;> rfl
  rw [e]
  cases i with
  | push =>
    simp only [sameHist, Option.bind_eq_bind, Option.bind_eq_some_iff, Option.map_eq_some_iff] at h1
    obtain ⟨h2, h3, r, h4, rfl⟩ := h1
    have h5 := setScroll_spec h3 (History.inv_reachable hr).curLt
    have h6 := History.inv_reachable (hist_op hr (.setScroll t.scroll.1 t.scroll.2) h3)
    exact ⟨h5.2.1.still (push_still h6 h4), by simp [Intent.isTraverse]⟩
  | reload => cases h1; exact ⟨Still.rfl.kept, fun _ => rfl⟩
  | traverse e => cases h1; exact ⟨Still.rfl.kept, fun _ => rfl⟩

/-- A load was started by `navigateTo`, `leave` before it. -/
theorem navigateTo_cases {env : Env} {t t' : Tab} {s : Str} {i : Intent} {ok : Bool}
    (hr : History.Reachable t.hist) (h : navigateTo env t s i ok = some t') :
    Kept t.scroll t.hist t'.hist ∧ (i.isTraverse = true → t'.hist = t.hist) ∧
    ((chans t')[t.tasks.length]? = some .empty →
      (i.isTraverse = false → Saved t.scroll t.hist t'.hist ∧ t'.hist.current = t.hist.current) ∧
      t'.pendingScroll = none ∧ ∃ u, t'.active = some ⟨t.tasks.length, u, i⟩) := by
  have hlen := chans_length t
  unfold navigateTo at h
  split at h
  · cases h
    refine ⟨Still.rfl.kept, fun _ => rfl, ?_⟩
    intro hc
    have : (chans t)[t.tasks.length]? = some .empty := hc
    rw [List.getElem?_eq_none (by omega)] at this
    cases this
  · rename_i url _
    split at h
    · obtain ⟨h1, h2⟩ := navigateSame_hist hr h
      refine ⟨h1, h2, ?_⟩
      intro hc
      rw [navigateSame_chans h, ← hlen] at hc
      simp at hc
    · simp only [Option.bind_eq_bind, Option.bind_eq_some_iff] at h
      obtain ⟨tl, h1, h⟩ := h
      cases h
      rw [startIfBound_hist]
      have hk : Kept t.scroll t.hist tl.hist ∧ (i.isTraverse = true → tl.hist = t.hist) := by
        cases hb : i.isTraverse with
        | true => rw [hb] at h1; rw [leave_false h1]; exact ⟨Still.rfl.kept, fun _ => rfl⟩
        | false => rw [hb] at h1; exact ⟨(leave_true hr h1).2.1, by simp⟩
      refine ⟨hk.1, hk.2, ?_⟩
      intro hc
      have hln := (leave_same h1).length
      cases ok with
      | false =>
        have : (chans tl)[t.tasks.length]? = some .empty := hc
        rw [List.getElem?_eq_none (by rw [chans_length]; omega)] at this
        cases this
      | true =>
        refine ⟨?_, (leave_more h1).1, url, ?_⟩
        · intro hb
          rw [hb] at h1
          obtain ⟨a, b, c⟩ := leave_true hr h1
          exact ⟨c, a⟩
        · rw [← hln]; rfl

theorem traverse_cases {env : Env} {t t' : Tab} {e : Nat} {ok : Bool}
    (hr : History.Reachable t.hist) (h : traverse env t e ok = some t') :
    t'.hist = t.hist ∧ ((chans t')[t.tasks.length]? = some .empty →
      t'.pendingScroll = none ∧ ∃ u, t'.active = some ⟨t.tasks.length, u, .traverse e⟩) := by
  have hlen := chans_length t
  unfold traverse at h
  split at h
  · cases h
    refine ⟨rfl, ?_⟩
    intro hc
    rw [List.getElem?_eq_none (by omega)] at hc
    cases hc
  · simp only [Option.bind_eq_bind, Option.bind_eq_some_iff] at h
    obtain ⟨t1, h1, h⟩ := h
    obtain ⟨_, h2, h3⟩ := navigateTo_cases hr h1
    refine ⟨by rw [emitHistory_hist h, h2 rfl], ?_⟩
    intro hc
    rw [(emitHistory_same h).chans] at hc
    obtain ⟨_, h4, h5⟩ := h3 hc
    simp only [Tab.emitHistory, Option.bind_eq_bind, Option.bind_eq_some_iff] at h
    obtain ⟨s, _, h⟩ := h
    cases h
    exact ⟨h4, h5⟩

/-- what a command does to the saved offsets, and the load it starts -/
structure CmdHist (t t' : Tab) (c : Cmd) : Prop where
  kept : Kept t.scroll t.hist t'.hist
  saved : (chans t')[t.tasks.length]? = some .empty → Saved t.scroll t.hist t'.hist
  load : (chans t')[t.tasks.length]? = some .empty → c.revisits = true → t'.pendingScroll = none ∧
    ∃ u i, t'.active = some ⟨t.tasks.length, u, i⟩ ∧ (i = .reload ∨ ∃ e, i = .traverse e ∧ t'.hist.current = some e)

theorem not_empty_of_same {t t' : Tab} (h : chans t' = chans t) : (chans t')[t.tasks.length]? ≠ some .empty := by
  rw [h, List.getElem?_eq_none (by rw [chans_length])]
  simp

theorem moved_hist {env : Env} {t t' : Tab} {ok : Bool} {c : Cmd} {h : Hist} {r : Hist × Option Nat}
    (hr : History.Reachable t.hist)
    (h1 : History.setCurrentScroll t.hist t.scroll.1 t.scroll.2 = some h)
    (h2 : Still h r.1 ∧ ∀ e, r.2 = some e → r.1.current = some e) (h3 : History.Reachable r.1)
    (hm : moved env t ok r = some t') : CmdHist t t' c := by
  obtain ⟨e1, k1, s1⟩ := setScroll_spec h1 (History.inv_reachable hr).curLt
  unfold moved at hm
  split at hm
  · cases hm
    refine ⟨k1.still h2.1, fun hc => absurd hc (not_empty_of_same rfl), fun hc => absurd hc (not_empty_of_same rfl)⟩
  · rename_i e he
    obtain ⟨h4, h5⟩ := traverse_cases (t := { t with hist := r.1 }) h3 hm
    refine ⟨by rw [h4]; exact k1.still h2.1, fun _ => by rw [h4]; exact s1.still h2.1, ?_⟩
    intro hc _
    obtain ⟨h6, u, h7⟩ := h5 hc
    exact ⟨h6, u, _, h7, Or.inr ⟨e, rfl, by rw [h4]; exact h2.2 e he⟩⟩

theorem command_hist {env : Env} {t t' : Tab} {ok : Bool} {c : Cmd} (hr : History.Reachable t.hist)
    (h : command env t ok c = some t') : CmdHist t t' c := by
  cases c with
  | setTitle s =>
    simp only [command, Option.some.injEq] at h
    subst h
    exact ⟨Still.rfl.kept, fun hc => absurd hc (not_empty_of_same rfl), fun hc => absurd hc (not_empty_of_same rfl)⟩
  | navigate s =>
    obtain ⟨h1, _, h3⟩ := navigateTo_cases hr h
    exact ⟨h1, fun hc => ((h3 hc).1 rfl).1, by simp [Cmd.revisits]⟩
  | loadHtml base =>
    simp only [command] at h
    split at h
    · cases h
      exact ⟨Still.rfl.kept, fun hc => absurd hc (not_empty_of_same rfl), fun hc => absurd hc (not_empty_of_same rfl)⟩
    · simp only [Option.bind_eq_bind, Option.bind_eq_some_iff] at h
      obtain ⟨tl, h1, h⟩ := h
      cases h
      obtain ⟨_, h2, h3⟩ := leave_true hr h1
      exact ⟨by rw [startIfBound_hist]; exact h2, fun _ => by rw [startIfBound_hist]; exact h3, by simp [Cmd.revisits]⟩
  | reload =>
    obtain ⟨h1, _, h3⟩ := navigateTo_cases hr h
    refine ⟨h1, fun hc => ((h3 hc).1 rfl).1, ?_⟩
    intro hc _
    obtain ⟨_, h4, u, h5⟩ := h3 hc
    exact ⟨h4, u, _, h5, Or.inl rfl⟩
  | goBack =>
    simp only [command, Option.bind_eq_bind, Option.bind_eq_some_iff] at h
    obtain ⟨hh, h1, r, h2, h⟩ := h
    have hr2 := hist_op hr (.setScroll t.scroll.1 t.scroll.2) h1
    exact moved_hist hr h1 (goBack_still (History.inv_reachable hr2) h2)
      (hist_op hr2 .goBack (by simp [History.step, h2])) h
  | goForward x =>
    simp only [command, Option.bind_eq_bind, Option.bind_eq_some_iff] at h
    obtain ⟨hh, h1, r, h2, h⟩ := h
    have hr2 := hist_op hr (.setScroll t.scroll.1 t.scroll.2) h1
    exact moved_hist hr h1 (goForward_still (History.inv_reachable hr2) h2)
      (hist_op hr2 (.goForward x) (by simp [History.step, h2])) h
  | goTo x =>
    simp only [command] at h
    split at h
    · cases h
      exact ⟨Still.rfl.kept, fun hc => absurd hc (not_empty_of_same rfl), fun hc => absurd hc (not_empty_of_same rfl)⟩
    · simp only [Option.bind_eq_bind, Option.bind_eq_some_iff] at h
      obtain ⟨hh, h1, r, h2, h⟩ := h
      have hr2 := hist_op hr (.setScroll t.scroll.1 t.scroll.2) h1
      exact moved_hist hr h1 (goTo_still (History.inv_reachable hr2) h2)
        (hist_op hr2 (.goTo x) (by simp [History.step, h2])) h
  | cancel =>
    simp only [command] at h
    split at h
    · cases h
      exact ⟨Still.rfl.kept, fun hc => absurd hc (not_empty_of_same rfl), fun hc => absurd hc (not_empty_of_same rfl)⟩
    · cases h
      refine ⟨Still.rfl.kept, fun hc => absurd hc (not_empty_of_same (chan_cancelTask _ _)),
        fun hc => absurd hc (not_empty_of_same (chan_cancelTask _ _))⟩

/-! ## Answers and the history -/

theorem commitHist_still {env : Env} {h : Hist} {r : Hist × Option (Int × Int)} {u : Url} {ti : Option Str} {i : Intent}
    (hr : History.Reachable h) (hc : commitHist env h u ti i = some r) : Still h r.1 := by
  cases i with
  | push =>
    simp only [commitHist, Option.map_eq_some_iff] at hc
    obtain ⟨x, hx, rfl⟩ := hc
    exact push_still (History.inv_reachable hr) hx
  | reload =>
    simp only [commitHist, Option.bind_eq_bind, Option.bind_eq_some_iff] at hc
    obtain ⟨h1, a1, h2, a2, hc⟩ := hc
    cases hc
    exact (replaceUrl_still a1).1.trans (setTitle_still a2).1
  | traverse e =>
    simp only [commitHist, Option.bind_eq_bind, Option.bind_eq_some_iff] at hc
    obtain ⟨h1, a1, h2, a2, hc⟩ := hc
    cases hc
    exact (replaceUrl_still a1).1.trans (setTitle_still a2).1

/-- what is restored when a page of the history is shown again -/
theorem commitHist_restores {env : Env} {h : Hist} {r : Hist × Option (Int × Int)} {u : Url} {ti : Option Str} {i : Intent}
    {e : Nat} {a : Entry} (hc : commitHist env h u ti i = some r)
    (hi : i = .reload ∨ i = .traverse e) (hcur : h.current = some e) (ha : h.entries[e]? = some a) :
    r.2 = some a.scroll := by
  rcases hi with rfl | rfl
  · simp only [commitHist, Option.bind_eq_bind, Option.bind_eq_some_iff] at hc
    obtain ⟨h1, a1, h2, a2, hc⟩ := hc
    cases hc
    obtain ⟨s1, c1⟩ := replaceUrl_still a1
    obtain ⟨s2, c2⟩ := setTitle_still a2
    obtain ⟨a', h3, h4⟩ := (s1.trans s2) e a ha
    simp [c2, c1, hcur, h3, h4]
  · simp only [commitHist, Option.bind_eq_bind, Option.bind_eq_some_iff] at hc
    obtain ⟨h1, a1, h2, a2, hc⟩ := hc
    cases hc
    obtain ⟨s1, c1⟩ := replaceUrl_still a1
    obtain ⟨s2, c2⟩ := setTitle_still a2
    obtain ⟨a', h3, h4⟩ := (s1.trans s2) e a ha
    simp [h3, h4]

theorem onResult_hist {env : Env} {t t' : Tab} {n : Nat} {r : Result} (h : onResult env t n r = some t') :
    (∀ u ti, r = .ok u ti → ∃ x, commitHist env t.hist u ti (intentOf t n) = some x ∧ t'.hist = x.1 ∧
      t'.pendingScroll = landing u x.2 ∧ t'.page = none) ∧
    ((∀ u ti, r ≠ .ok u ti) → t'.hist = t.hist) := by
  cases r with
  | ok u ti =>
    simp only [onResult, Option.bind_eq_bind, Option.bind_eq_some_iff] at h
    obtain ⟨x, hx, h⟩ := h
    refine ⟨?_, fun hne => absurd rfl (hne u ti)⟩
    intro u' ti' e
    cases e
    refine ⟨x, hx, emitHistory_hist h, ?_⟩
    simp only [Tab.emitHistory, Option.bind_eq_bind, Option.bind_eq_some_iff] at h
    obtain ⟨s, _, h⟩ := h
    cases h
    exact ⟨rfl, rfl⟩
  | err => cases h; exact ⟨by simp, fun _ => rfl⟩
  | download u => cases h; exact ⟨by simp, fun _ => rfl⟩

theorem deliver_still {env : Env} {t t' : Tab} (hr : History.Reachable t.hist) (h : deliver env t = some t') :
    Still t.hist t'.hist := by
  unfold deliver at h
  split at h
  · cases h; exact .rfl
  · split at h
    · cases h; exact .rfl
    · split at h
      · cases h; exact .rfl
      · rename_i r _
        obtain ⟨h1, h2⟩ := onResult_hist h
        cases r with
        | ok u ti =>
          obtain ⟨x, hx, h3, _⟩ := h1 u ti rfl
          rw [h3]
          exact commitHist_still hr hx
        | err => rw [h2 (by simp)]; exact .rfl
        | download u => rw [h2 (by simp)]; exact .rfl
      · cases h; exact .rfl

theorem step_kept {env : Env} {t t' : Tab} {x : Step} (hr : History.Reachable t.hist) (h : step env t x = some t') :
    Kept t.scroll t.hist t'.hist := by
  cases x with
  | cmd c ok =>
    simp only [step, Option.map_eq_some_iff] at h
    obtain ⟨t1, h1, rfl⟩ := h
    rw [sync_hist]
    exact (command_hist hr h1).kept
  | deliver =>
    simp only [step, Option.map_eq_some_iff] at h
    obtain ⟨t1, h1, rfl⟩ := h
    rw [sync_hist]
    exact (deliver_still hr h1).kept
  | tick => cases h; rw [tick_hist]; exact Still.rfl.kept
  | userScroll x y => cases h; exact Still.rfl.kept
  | layout p v => cases h; exact Still.rfl.kept
  | respond n => cases h; rw [respond_hist]; exact Still.rfl.kept
  | abort n => cases h; rw [abort_hist]; exact Still.rfl.kept
  | finish n o => cases h; rw [finish_hist]; exact Still.rfl.kept

/-! ## In flight -/

/-- The rest of the tab that matters for the offset. -/
structure Rest (t t' : Tab) : Prop where
  hist : t'.hist = t.hist
  active : t'.active = t.active
  page : t'.page = t.page

theorem respond_rest (t : Tab) (n : Nat) : Rest t (respond t n) ∧ (respond t n).pendingScroll = t.pendingScroll := by
  unfold respond; split
  · exact ⟨⟨rfl, rfl, rfl⟩, rfl⟩
  · split <;> exact ⟨⟨rfl, rfl, rfl⟩, rfl⟩

theorem abort_rest (t : Tab) (n : Nat) : Rest t (abort t n) ∧ (abort t n).pendingScroll = t.pendingScroll := by
  unfold abort; split
  · exact ⟨⟨rfl, rfl, rfl⟩, rfl⟩
  · split <;> exact ⟨⟨rfl, rfl, rfl⟩, rfl⟩

theorem finish_rest (t : Tab) (n : Nat) (o : Outcome) :
    Rest t (finish t n o) ∧ (finish t n o).pendingScroll = t.pendingScroll := by
  unfold finish; split
  · exact ⟨⟨rfl, rfl, rfl⟩, rfl⟩
  · split
    · exact ⟨⟨rfl, rfl, rfl⟩, rfl⟩
    · split <;> exact ⟨⟨rfl, rfl, rfl⟩, rfl⟩

theorem tick_rest (env : Env) (t : Tab) : Rest t (tick env t) := by
  unfold tick
  split
  · split
    · split
      · exact ⟨rfl, rfl, rfl⟩
      · split <;> exact ⟨rfl, rfl, rfl⟩
    · exact ⟨rfl, rfl, rfl⟩
  · exact ⟨rfl, rfl, rfl⟩

theorem tick_none {env : Env} {t : Tab} (h : t.pendingScroll = none ∨ t.page = none) : tick env t = t := by
  unfold tick
  split
  · rename_i h1 h2
    rcases h with h | h
    · rw [h] at h1; cases h1
    · rw [h] at h2; cases h2
  · rfl

/-- Navigation `n` in flight from a quiet tab: nothing else happens to the history until it lands; then the history and the
pending scroll are what its answer makes of them. -/
inductive Flight (env : Env) (h : Hist) (a : Option Active) (i : Intent) (n : Nat) (s : Tab) : Prop
  | air (hp : s.pendingRx = some n) (hl : s.load = some (n, false)) (hh : s.hist = h) (ha : s.active = a)
      (hs : s.pendingScroll = none)
  | land (hp : s.pendingRx = none) (hl : s.load = some (n, false)) (c : Chan) (hc : (chans s)[n]? = some c)
      (hne : c ≠ .empty)
      (hr : ∀ u ti, c = .sent (.ok u ti) → ∃ x, commitHist env h u ti i = some x ∧ s.hist = x.1 ∧
        s.pendingScroll = landing u x.2 ∧ s.page = none)

theorem flight_step {env : Env} {h : Hist} {a : Active} {i : Intent} {n : Nat} {s s' : Tab} {x : Step}
    (hai : a.id = n) (hi : a.history = i) (f : Flight env h (some a) i n s) (hs : step env s x = some s')
    (hc : ∀ c ok, x ≠ .cmd c ok) (hy : ∀ p v, x ≠ .layout p v) : Flight env h (some a) i n s' := by
  by_cases hd : x = .deliver
  · subst hd
    simp only [step, Option.map_eq_some_iff] at hs
    obtain ⟨s1, h1, rfl⟩ := hs
    cases f with
    | land hp hl c hcc hne hr =>
      rw [deliver_idle hp] at h1
      cases h1
      rw [sync_idle hp (by simp [hl])]
      exact .land hp hl c hcc hne hr
    | air hp hl hh ha hsn =>
      have key : s1.pendingRx = none → s1.load = some (n, false) → s1.sync = s1 :=
        fun e1 e2 => sync_idle e1 (by simp [e2])
      cases hk : s.tasks[n]? with
      | none =>
        have : deliver env s = some s := by unfold deliver; simp only [hp, hk]
        rw [this] at h1
        cases h1
        have e : s.sync = s := by
          unfold Tab.sync
          split
          · rename_i h2 _; rw [hp] at h2; cases h2
          · rfl
        rw [e]
        exact .air hp hl hh ha hsn
      | some k =>
        have hck : (chans s)[n]? = some k.chan := by simp [chans, hk]
        cases hkc : k.chan with
        | empty =>
          have : deliver env s = some s := by unfold deliver; simp only [hp, hk, hkc]
          rw [this] at h1
          cases h1
          have e : s.sync = s := by
            unfold Tab.sync
            split
            · rename_i h2 _; rw [hp] at h2; cases h2
            · rfl
          rw [e]
          exact .air hp hl hh ha hsn
        | dropped =>
          have : deliver env s = some { s with pendingRx := none, handled := s.handled ++ [n] } := by
            unfold deliver; simp only [hp, hk, hkc]
          rw [this] at h1
          cases h1
          rw [key rfl hl]
          exact .land rfl hl .dropped (by rw [← hkc]; exact hck) (by simp) (by simp)
        | sent r =>
          have : deliver env s = onResult env { s with pendingRx := none, handled := s.handled ++ [n] } n r := by
            unfold deliver; simp only [hp, hk, hkc]
          rw [this] at h1
          have hans := onResult_ans h1
          have hl1 : s1.load = some (n, false) := hans.load.trans hl
          rw [key hans.pendingRx hl1]
          refine .land hans.pendingRx hl1 (.sent r) (by rw [hans.chans, ← hkc]; exact hck) (by simp) ?_
          intro u ti e
          cases e
          obtain ⟨x, hx, h2⟩ := (onResult_hist h1).1 u ti rfl
          refine ⟨x, ?_, h2⟩
          have e1 : intentOf { s with pendingRx := none, handled := s.handled ++ [n] } n = i := by
            simp only [intentOf, ha, hai, if_true, hi]
          rw [e1] at hx
          rw [← hh]
          exact hx
  · obtain ⟨e, _⟩ := step_env1 hs hc hd
    have keep : s'.hist = s.hist ∧ s'.active = s.active ∧ s'.page = s.page ∧
        (s.pendingScroll = none ∨ s.page = none → s'.pendingScroll = s.pendingScroll) := by
      cases x with
      | cmd c ok => exact absurd rfl (hc c ok)
      | deliver => exact absurd rfl hd
      | tick =>
        cases hs
        exact ⟨(tick_rest env s).hist, (tick_rest env s).active, (tick_rest env s).page, fun h => by rw [tick_none h]⟩
      | userScroll x y => cases hs; exact ⟨rfl, rfl, rfl, fun _ => rfl⟩
      | layout p v => exact absurd rfl (hy p v)
      | respond m =>
        cases hs
        exact ⟨(respond_rest s m).1.hist, (respond_rest s m).1.active, (respond_rest s m).1.page, fun _ => (respond_rest s m).2⟩
      | abort m =>
        cases hs
        exact ⟨(abort_rest s m).1.hist, (abort_rest s m).1.active, (abort_rest s m).1.page, fun _ => (abort_rest s m).2⟩
      | finish m o =>
        cases hs
        exact ⟨(finish_rest s m o).1.hist, (finish_rest s m o).1.active, (finish_rest s m o).1.page, fun _ => (finish_rest s m o).2⟩
    obtain ⟨k1, k2, k3, k4⟩ := keep
    cases f with
    | air hp hl hh ha hsn =>
      exact .air (by rw [e.pendingRx]; exact hp) (by rw [e.load]; exact hl) (by rw [k1]; exact hh) (by rw [k2]; exact ha)
        (by rw [k4 (Or.inl hsn)]; exact hsn)
    | land hp hl c hcc hne hr =>
      refine .land (by rw [e.pendingRx]; exact hp) (by rw [e.load]; exact hl) c (e.keep hcc hne) hne ?_
      intro u ti he
      obtain ⟨x, h1, h2, h3, h4⟩ := hr u ti he
      exact ⟨x, h1, by rw [k1]; exact h2, by rw [k4 (Or.inr h4)]; exact h3, by rw [k3]; exact h4⟩

theorem flight_run {env : Env} {h : Hist} {a : Active} {i : Intent} {n : Nat} {q : List Step} {s s' : Tab}
    (hai : a.id = n) (hi : a.history = i) (f : Flight env h (some a) i n s) (hs : run env s q = some s')
    (hq : Waiting q) (hy : NotLaidOut q) : Flight env h (some a) i n s' := by
  induction q generalizing s with
  | nil => cases hs; exact f
  | cons x xs ih =>
    obtain ⟨t1, h1, h2⟩ := run_cons hs
    obtain ⟨hx, hw⟩ := waiting_cons hq
    refine ih (flight_step hai hi f h1 hx ?_) h2 hw ?_
    · intro p v e; exact hy p v (by simp [e])
    · intro p v hm; exact hy p v (by simp [hm])

/-! ## The offset that is applied -/

theorem ctxScroll_near (t : Tab) (p : Int × Int) (ph : ℚ) (hp : t.page = some ph) :
    Near (ctxScroll t p.1 p.2) (clampTo p ph t.vh) := by
  unfold ctxScroll clampTo
  simp only [hp]
  split
  · rename_i h; exact h
  · constructor <;> simp

theorem round_near {q : ℚ} {n : Int} (h : |q - n| < 1 / 2) : Composite.roundQ q = n := by
  rw [abs_lt] at h
  unfold Composite.roundQ
  split
  · rw [Int.floor_eq_iff]
    constructor <;> linarith [h.1, h.2]
  · have : ⌊-q + 1 / 2⌋ = -n := by
      rw [Int.floor_eq_iff]
      push_cast
      constructor <;> linarith [h.1, h.2]
    rw [this]; simp

end Verif.TabNav
