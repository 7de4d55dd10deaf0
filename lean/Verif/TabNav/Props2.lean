import Verif.TabNav.Lemmas4
import Verif.TabNav.Props
set_option linter.unusedVariables false

/-! # C81: scroll offsets -/
namespace Verif.TabNav
open Verif.History (Entry)

/-- A command that starts to load a page saves where the page being left is scrolled to. -/
theorem C81_saved (env : Env) (title : Str) (t t1 : Tab) (c : Cmd) (ok : Bool) (n e : Nat)
    (h : Reachable env title t) (h1 : step env t (.cmd c ok) = some t1) (hs : Starts t t1 n)
    (he : t.hist.current = some e) : ∃ a, t1.hist.entries[e]? = some a ∧ a.scroll = t.scroll := by
  simp only [step, Option.map_eq_some_iff] at h1
  obtain ⟨t', h1, rfl⟩ := h1
  obtain ⟨rfl, ha⟩ := hs
  rw [sync_hist]
  refine (command_hist (hist_reach h) h1).saved ?_ e he
  rw [← chans_sync]
  unfold chans
  rw [List.getElem?_map]
  exact ha

/-- Nothing else touches a saved offset: a step changes at most the offset of the entry that is current, and only to where the
tab is scrolled. -/
theorem C81_kept (env : Env) (title : Str) (t t' : Tab) (x : Step) (e : Nat) (a : Entry)
    (h : Reachable env title t) (hs : step env t x = some t') (ha : t.hist.entries[e]? = some a) :
    ∃ a', t'.hist.entries[e]? = some a' ∧ (a'.scroll = a.scroll ∨ (t.hist.current = some e ∧ a'.scroll = t.scroll)) :=
  step_kept (hist_reach h) hs e a ha

/-- From a tab with nothing in flight, the user goes back, forward or to an entry, or reloads, and a load starts; entry `e` of
the history is current then, with a saved offset other than the top left corner. Once the document has come in, and is
laid out, the next frame scrolls it there, or as near as the page allows. -/
theorem C81_restored_partial (env : Env) (title : Str) (t t1 t2 t3 : Tab) (c : Cmd) (ok : Bool) (n e : Nat) (a : Entry)
    (q : List Step) (u : Url) (ti : Option Str) (ph vh : ℚ)
    (h : Reachable env title t) (hi : Idle t) (h1 : step env t (.cmd c ok) = some t1) (hs : Starts t t1 n)
    (hc : c.revisits = true) (he : t1.hist.current = some e) (ha : t1.hist.entries[e]? = some a) (hp : a.scroll ≠ (0, 0))
    (h2 : run env t1 q = some t2) (hq : Waiting q) (hy : NotLaidOut q) (hi2 : Idle t2)
    (hans : answer t2 n = some (.sent (.ok u ti))) (hph : 0 < ph)
    (h3 : run env t2 [.layout (some ph) vh, .tick] = some t3) :
    Near t3.ctx (clampTo a.scroll ph vh) ∧ t3.pendingScroll = none ∧
    (0 ≤ a.scroll.1 → 0 ≤ a.scroll.2 → (a.scroll.2 : ℚ) ≤ ph - vh → t3.scroll = a.scroll) := by
  have hst := starts_stage h1 hs
  simp only [step, Option.map_eq_some_iff] at h1
  obtain ⟨t', h1, rfl⟩ := h1
  obtain ⟨hn, hem⟩ := hs
  have hem : (chans t')[t.tasks.length]? = some .empty := by
    rw [hn, ← chans_sync]
    unfold chans
    rw [List.getElem?_map]
    exact hem
  have hch := command_hist (hist_reach h) h1
  obtain ⟨hps, ul, i, hact, hint⟩ := hch.load hem hc
  have hpr : t'.pendingRx = none := by rw [(command_eff h1).pendingRx]; exact hi.1
  have hload : t'.load = some (n, true) := by
    have he := command_eff h1
    have hlen := chans_length t
    cases he.kind with
    | none hc _ _ _ _ => rw [hc, List.getElem?_eq_none (by omega)] at hem; cases hem
    | drop hc _ _ _ _ => rw [hc, List.getElem?_eq_none (by omega)] at hem; cases hem
    | same hc _ _ _ _ => rw [hc, ← hlen] at hem; simp at hem
    | start hc hl _ _ _ => rw [hl, hn]
  have es : t'.sync = { t' with pendingRx := some n, load := some (n, false) } := by
    simp only [Tab.sync, hpr, hload]
  have hf0 : Flight env t'.hist (some ⟨n, ul, i⟩) i n t'.sync := by
    rw [es]
    exact .air rfl rfl rfl (by rw [← hn]; exact hact) hps
  rw [sync_hist] at he ha
  have hint' : i = .reload ∨ i = .traverse e := by
    rcases hint with rfl | ⟨e', rfl, h5⟩
    · exact Or.inl rfl
    · rw [he] at h5; cases h5; exact Or.inr rfl
  have hf2 := flight_run rfl rfl hf0 h2 hq hy
  have key : t2.pendingScroll = some (.offset a.scroll.1 a.scroll.2) := by
    cases hf2 with
    | air hpx _ _ _ _ => rw [hi2.1] at hpx; cases hpx
    | land hpx hl ch hcc hne hr =>
      rw [answer_eq, hcc] at hans
      cases hans
      obtain ⟨x, h5, _, h6, _⟩ := hr u ti rfl
      rw [h6, commitHist_restores h5 hint' he ha]
      simp [landing, hp]
  have e3 : t3 = ({ t2 with page := some ph, vh := vh, pendingScroll := none } : Tab).applyScroll a.scroll := by
    simp only [run, step, Option.bind_eq_bind, Option.bind_some, Option.some.injEq] at h3
    rw [← h3]
    unfold tick
    simp only [key, if_pos hph]
  subst e3
  have hnear := ctxScroll_near ({ t2 with page := some ph, vh := vh, pendingScroll := none } : Tab) a.scroll ph rfl
  refine ⟨hnear, rfl, ?_⟩
  intro hx hyy hfit
  have hx' : (0 : ℚ) ≤ a.scroll.1 := by exact_mod_cast hx
  have hy' : (0 : ℚ) ≤ a.scroll.2 := by exact_mod_cast hyy
  have hcl : clampTo a.scroll ph vh = ((a.scroll.1 : ℚ), (a.scroll.2 : ℚ)) := by
    unfold clampTo
    rw [max_eq_left hx', max_eq_left hy', max_eq_left (by linarith), min_eq_left hfit]
  rw [show ({ t2 with page := some ph, vh := vh, pendingScroll := none } : Tab).vh = vh from rfl, hcl] at hnear
  exact Prod.ext (round_near hnear.1) (round_near hnear.2)

/-- there and back again: the hypotheses are met, and the page is where it was -/
example : ∃ t t1 t2 t3, run demo (Tab.new []) ([asks ['a']] ++ loads 0 pageA none ++ [.deliver, .layout (some 5000) 600,
      .userScroll 0 700, asks ['b']] ++ loads 1 pageB none ++ [.deliver]) = some t ∧ Idle t ∧
    step demo t (.cmd .goBack true) = some t1 ∧ Starts t t1 2 ∧ t1.hist.current = some 0 ∧
    (t1.hist.entries[0]?).map Entry.scroll = some (0, 700) ∧
    run demo t1 (loads 2 pageA none ++ [.tick, .deliver, .tick]) = some t2 ∧ Idle t2 ∧
    run demo t2 [.layout (some 5000) 600, .tick] = some t3 ∧ t3.scroll = (0, 700) := by
  refine ⟨_, _, _, _, rfl, ⟨rfl, ?_⟩, rfl, ⟨rfl, rfl⟩, rfl, rfl, rfl, ⟨rfl, ?_⟩, rfl, ?_⟩
  · intro n h; cases h
  · intro n h; cases h
  · decide +kernel

/-- Without "nothing in flight": the user scrolls A down, follows a link to B, and, B being slow, another one to C. When
they go back from C, A is at the top: the second click saved the offset of the cleared tab over that of A. -/
theorem C81_overwritten_violated :
    ∃ t t', run demo (Tab.new []) ([asks ['a']] ++ loads 0 pageA none ++ [.deliver, .layout (some 5000) 600,
        .userScroll 0 700]) = some t ∧ t.cur = some pageA ∧ t.scroll = (0, 700) ∧
      run demo t ([asks ['b'], asks ['c'], .abort 1] ++ loads 2 pageC none ++ [.deliver, .deliver, .cmd .goBack true] ++
        loads 3 pageA none ++ [.deliver, .layout (some 5000) 600, .tick]) = some t' ∧
      t'.cur = some pageA ∧ t'.scroll = (0, 0) ∧ t'.pendingScroll = none := by
  refine ⟨_, _, rfl, rfl, rfl, rfl, rfl, ?_, ?_⟩
  · decide +kernel
  · decide +kernel

/-- A world in which `x` is a place in page `a`. -/
def demo2 : Env where
  parse s := some (if s = ['a', '#', 'x'] then ⟨['h', 't', 't', 'p'], ['a'], some ['x']⟩ else ⟨['h', 't', 't', 'p'], s, none⟩)
  print u := if u.fragment = none then u.rest else ['a', '#', 'x']
  fragY _ _ := some 900

/-- The user opens `a#x`, scrolls to the top of the page, follows a link and goes back: the page is not at the top, where
it was left, but at `x`. -/
theorem C81_top_of_fragment_violated :
    ∃ t t' u, run demo2 (Tab.new []) ([asks ['a', '#', 'x'], .respond 0,
          .finish 0 (.result (.ok ⟨['h', 't', 't', 'p'], ['a'], some ['x']⟩ none)), .deliver, .layout (some 5000) 600, .tick,
          .userScroll 0 0]) = some t ∧ t.cur = some u ∧ t.scroll = (0, 0) ∧
      run demo2 t ([asks ['b']] ++ loads 1 pageB none ++ [.deliver, .cmd .goBack true, .respond 2,
          .finish 2 (.result (.ok u none)), .deliver, .layout (some 5000) 600, .tick]) = some t' ∧
      t'.cur = some u ∧ t'.scroll = (0, 900) := by
  refine ⟨_, _, ⟨['h', 't', 't', 'p'], ['a'], some ['x']⟩, rfl, ?_, ?_, rfl, ?_, ?_⟩
  · decide +kernel
  · decide +kernel
  · decide +kernel
  · decide +kernel

/-- The user has scrolled down to 700 and asks for another page, which fails to load. The tab still shows the page, but at the
top: the offset was given up when the load started. -/
theorem C81_failed_load_violated :
    ∃ t t', run demo (Tab.new []) ([asks ['a']] ++ loads 0 pageA none ++ [.deliver, .layout (some 5000) 600, .tick,
          .userScroll 0 700]) = some t ∧ t.doc = some 0 ∧ t.ctx = (0, 700) ∧
      run demo t [asks ['b'], .respond 1, .finish 1 (.result .err), .deliver, .layout (some 5000) 600, .tick] = some t' ∧
      t'.doc = some 0 ∧ t'.cur = some pageA ∧ t'.ctx = (0, 0) ∧ t'.scroll = (0, 0) := by
  refine ⟨_, _, rfl, ?_, ?_, rfl, ?_, ?_, ?_, ?_⟩ <;> decide +kernel

end Verif.TabNav
