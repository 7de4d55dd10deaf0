import Verif.RefTracker.Spec
import Mathlib.Tactic.Common
import Mathlib.Data.List.Induction

set_option linter.unusedVariables false

namespace Verif.RefTracker
open Verif.Map

/-! ### Registry -/

structure RegInv (g : Registry) : Prop where
  fwd : ∀ r id, look g.forward r = some id → look g.reverse id = some r
  rev : ∀ id r, look g.reverse id = some r → id < g.next
  alloc : ∀ (k : Nat) (r : Ref) (id : Nat), g.calls[k]? = some ⟨r, .allocated id⟩ →
    id < g.next ∧ look g.reverse id = none ∧ look g.forward r = none
  allocU : ∀ (k j : Nat) (r r' : Ref) (id : Nat), g.calls[k]? = some ⟨r, .allocated id⟩ →
    g.calls[j]? = some ⟨r', .allocated id⟩ → k = j
  lock : ∀ (k : Nat) (r : Ref), g.calls[k]? = some ⟨r, .locked⟩ → look g.forward r = none
  reved : ∀ (k : Nat) (r : Ref) (id : Nat), g.calls[k]? = some ⟨r, .reversed id⟩ →
    look g.reverse id = some r ∧ look g.forward r = none
  don : ∀ (k : Nat) (r : Ref) (id : Nat), g.calls[k]? = some ⟨r, .done id⟩ → look g.forward r = some id
  one : ∀ (k j : Nat) (c c' : Call), g.calls[k]? = some c → g.calls[j]? = some c' → c.ref = c'.ref →
    (∀ id, c.stage ≠ .done id) → (∀ id, c'.stage ≠ .done id) → k = j

theorem getElem?_snoc {α : Type} {l : List α} {x y : α} {k : Nat} (h : (l ++ [x])[k]? = some y) :
    (l[k]? = some y) ∨ (k = l.length ∧ y = x) := by
  by_cases hk : k < l.length
  · rw [List.getElem?_append_left hk] at h; exact .inl h
  · have := (List.getElem?_eq_some_iff.mp h).1
    simp at this
    have hk' : k = l.length := by omega
    subst hk'; simp at h; exact .inr ⟨rfl, h.symm⟩

theorem getElem?_set' {α : Type} {l : List α} {x y : α} {k j : Nat} (h : (l.set k x)[j]? = some y) :
    (j = k ∧ y = x) ∨ (j ≠ k ∧ l[j]? = some y) := by
  rw [List.getElem?_set] at h
  split at h
  · rename_i hk; split at h
    · simp at h; exact .inl ⟨hk.symm, h.symm⟩
    · simp at h
  · rename_i hk; exact .inr ⟨fun e => hk e.symm, h⟩

theorem not_locked {g : Registry} {r : Ref} (h : g.locked r = false) (k : Nat) (c : Call)
    (hc : g.calls[k]? = some c) (hr : c.ref = r) : ∃ id, c.stage = .done id := by
  unfold Registry.locked at h
  rw [List.any_eq_false] at h
  have := h c (List.mem_of_getElem? hc)
  rw [decide_eq_true hr] at this
  cases hs : c.stage with
  | done id => exact ⟨id, rfl⟩
  | _ => rw [hs] at this; simp at this

theorem reg_begin {g g' : Registry} {r : Ref} (hi : RegInv g) (h : g.begin r = some g') : RegInv g' := by
  unfold Registry.begin at h
  split at h
  · simp at h
  · rename_i hl
    have hl : g.locked r = false := by simpa using hl
    have hnl := not_locked hl
    cases hf : look g.forward r with
    | some id =>
      rw [hf] at h; simp at h; subst h
      constructor
      · exact hi.fwd
      · exact hi.rev
      · intro k r' id' hk
        rcases getElem?_snoc hk with hk | ⟨_, h⟩
        · exact hi.alloc k r' id' hk
        · simp at h
      · intro k j r1 r2 id' hk hj
        rcases getElem?_snoc hk with hk | ⟨_, h⟩
        · rcases getElem?_snoc hj with hj | ⟨_, h⟩
          · exact hi.allocU k j r1 r2 id' hk hj
          · simp at h
        · simp at h
      · intro k r' hk
        rcases getElem?_snoc hk with hk | ⟨_, h⟩
        · exact hi.lock k r' hk
        · simp at h
      · intro k r' id' hk
        rcases getElem?_snoc hk with hk | ⟨_, h⟩
        · exact hi.reved k r' id' hk
        · simp at h
      · intro k r' id' hk
        rcases getElem?_snoc hk with hk | ⟨_, h⟩
        · exact hi.don k r' id' hk
        · simp at h; obtain ⟨rfl, rfl⟩ := h; exact hf
      · intro k j c c' hk hj he h1 h2
        rcases getElem?_snoc hk with hk | ⟨_, rfl⟩
        · rcases getElem?_snoc hj with hj | ⟨_, rfl⟩
          · exact hi.one k j c c' hk hj he h1 h2
          · exact absurd rfl (h2 id)
        · exact absurd rfl (h1 id)
    | none =>
      rw [hf] at h; simp at h; subst h
      constructor
      · exact hi.fwd
      · exact hi.rev
      · intro k r' id' hk
        rcases getElem?_snoc hk with hk | ⟨_, h⟩
        · exact hi.alloc k r' id' hk
        · simp at h
      · intro k j r1 r2 id' hk hj
        rcases getElem?_snoc hk with hk | ⟨_, h⟩
        · rcases getElem?_snoc hj with hj | ⟨_, h⟩
          · exact hi.allocU k j r1 r2 id' hk hj
          · simp at h
        · simp at h
      · intro k r' hk
        rcases getElem?_snoc hk with hk | ⟨_, h⟩
        · exact hi.lock k r' hk
        · simp at h; subst h; exact hf
      · intro k r' id' hk
        rcases getElem?_snoc hk with hk | ⟨_, h⟩
        · exact hi.reved k r' id' hk
        · simp at h
      · intro k r' id' hk
        rcases getElem?_snoc hk with hk | ⟨_, h⟩
        · exact hi.don k r' id' hk
        · simp at h
      · intro k j c c' hk hj he h1 h2
        rcases getElem?_snoc hk with hk | ⟨rfl, rfl⟩
        · rcases getElem?_snoc hj with hj | ⟨rfl, rfl⟩
          · exact hi.one k j c c' hk hj he h1 h2
          · obtain ⟨id, hid⟩ := hnl k c hk he
            exact absurd hid (h1 id)
        · rcases getElem?_snoc hj with hj | ⟨rfl, rfl⟩
          · obtain ⟨id, hid⟩ := hnl j c' hj he.symm
            exact absurd hid (h2 id)
          · rfl

theorem reg_advance {g g' : Registry} {k : Nat} (hi : RegInv g) (h : g.advance k = some g') :
    RegInv g' := by
  unfold Registry.advance at h
  cases hc : g.calls[k]? with
  | none => rw [hc] at h; simp at h
  | some c =>
    obtain ⟨r, st⟩ := c
    rw [hc] at h
    simp only at h
    -- the other calls of the same reference are done
    have hone : (∀ id, st ≠ .done id) → ∀ (j : Nat) (c' : Call), j ≠ k → g.calls[j]? = some c' → c'.ref = r →
        ∃ id, c'.stage = .done id := by
      intro hst j c' hjk hj hr
      cases hs : c'.stage with
      | done id => exact ⟨id, rfl⟩
      | _ =>
        exact absurd (hi.one j k c' _ hj hc hr (by intro id; rw [hs]; simp) hst) hjk
    cases st with
    | done id => simp at h
    | locked =>
      simp at h; subst h
      have hfn := hi.lock k r hc
      constructor
      · exact hi.fwd
      · intro id r' hr; have := hi.rev id r' hr; simp only; omega
      · intro j r' id hj
        rcases getElem?_set' hj with ⟨rfl, h⟩ | ⟨hne, hj⟩
        · simp at h; obtain ⟨rfl, rfl⟩ := h
          refine ⟨by simp, ?_, hfn⟩
          cases hr : look g.reverse g.next with
          | none => rfl
          | some r' => have := hi.rev _ _ hr; omega
        · obtain ⟨h1, h2⟩ := hi.alloc j r' id hj; exact ⟨by simp only; omega, h2⟩
      · intro j1 j2 r1 r2 id g1 g2
        rcases getElem?_set' g1 with ⟨rfl, h1⟩ | ⟨hne1, h1⟩
        · simp at h1; obtain ⟨rfl, rfl⟩ := h1
          rcases getElem?_set' g2 with ⟨rfl, _⟩ | ⟨_, h2⟩
          · rfl
          · have := (hi.alloc j2 r2 _ h2).1; omega
        · rcases getElem?_set' g2 with ⟨rfl, h2⟩ | ⟨_, h2⟩
          · simp at h2; obtain ⟨rfl, rfl⟩ := h2
            have := (hi.alloc j1 r1 _ h1).1; omega
          · exact hi.allocU j1 j2 r1 r2 id h1 h2
      · intro j r' hj
        rcases getElem?_set' hj with ⟨rfl, h⟩ | ⟨hne, hj⟩
        · simp at h
        · exact hi.lock j r' hj
      · intro j r' id hj
        rcases getElem?_set' hj with ⟨rfl, h⟩ | ⟨hne, hj⟩
        · simp at h
        · exact hi.reved j r' id hj
      · intro j r' id hj
        rcases getElem?_set' hj with ⟨rfl, h⟩ | ⟨hne, hj⟩
        · simp at h
        · exact hi.don j r' id hj
      · intro j1 j2 c1 c2 g1 g2 he hs1 hs2
        rcases getElem?_set' g1 with ⟨rfl, rfl⟩ | ⟨hne1, h1⟩
        · rcases getElem?_set' g2 with ⟨rfl, rfl⟩ | ⟨hne2, h2⟩
          · rfl
          · obtain ⟨id, hid⟩ := hone (by simp) j2 c2 hne2 h2 he.symm
            exact absurd hid (hs2 id)
        · rcases getElem?_set' g2 with ⟨rfl, rfl⟩ | ⟨hne2, h2⟩
          · obtain ⟨id, hid⟩ := hone (by simp) j1 c1 hne1 h1 he
            exact absurd hid (hs1 id)
          · exact hi.one j1 j2 c1 c2 h1 h2 he hs1 hs2
    | allocated id =>
      simp at h; subst h
      obtain ⟨ha1, ha2, ha3⟩ := hi.alloc k r id hc
      have hkeep : ∀ id' r', look g.reverse id' = some r' → look (put g.reverse id r) id' = some r' := by
        intro id' r' h
        rw [look_put, if_neg]; exact h
        intro e; subst e; rw [ha2] at h; cases h
      constructor
      · intro r' id' hf; exact hkeep _ _ (hi.fwd r' id' hf)
      · intro id' r' hr
        rw [look_put] at hr
        split at hr
        · rename_i he; subst he; exact ha1
        · exact hi.rev id' r' hr
      · intro j r' id' hj
        rcases getElem?_set' hj with ⟨rfl, h⟩ | ⟨hne, hj⟩
        · simp at h
        · obtain ⟨h1, h2, h3⟩ := hi.alloc j r' id' hj
          refine ⟨h1, ?_, h3⟩
          rw [look_put, if_neg]; exact h2
          intro e; subst e; exact hne (hi.allocU j k r' r id hj hc)
      · intro j1 j2 r1 r2 id' g1 g2
        rcases getElem?_set' g1 with ⟨rfl, h1⟩ | ⟨hne1, h1⟩
        · simp at h1
        · rcases getElem?_set' g2 with ⟨rfl, h2⟩ | ⟨_, h2⟩
          · simp at h2
          · exact hi.allocU j1 j2 r1 r2 id' h1 h2
      · intro j r' hj
        rcases getElem?_set' hj with ⟨rfl, h⟩ | ⟨hne, hj⟩
        · simp at h
        · exact hi.lock j r' hj
      · intro j r' id' hj
        rcases getElem?_set' hj with ⟨rfl, h⟩ | ⟨hne, hj⟩
        · simp at h; obtain ⟨rfl, rfl⟩ := h
          exact ⟨by simp [look_put], ha3⟩
        · obtain ⟨h1, h2⟩ := hi.reved j r' id' hj
          exact ⟨hkeep _ _ h1, h2⟩
      · intro j r' id' hj
        rcases getElem?_set' hj with ⟨rfl, h⟩ | ⟨hne, hj⟩
        · simp at h
        · exact hi.don j r' id' hj
      · intro j1 j2 c1 c2 g1 g2 he hs1 hs2
        rcases getElem?_set' g1 with ⟨rfl, rfl⟩ | ⟨hne1, h1⟩
        · rcases getElem?_set' g2 with ⟨rfl, rfl⟩ | ⟨hne2, h2⟩
          · rfl
          · obtain ⟨id, hid⟩ := hone (by simp) j2 c2 hne2 h2 he.symm
            exact absurd hid (hs2 id)
        · rcases getElem?_set' g2 with ⟨rfl, rfl⟩ | ⟨hne2, h2⟩
          · obtain ⟨id, hid⟩ := hone (by simp) j1 c1 hne1 h1 he
            exact absurd hid (hs1 id)
          · exact hi.one j1 j2 c1 c2 h1 h2 he hs1 hs2
    | reversed id =>
      simp at h; subst h
      obtain ⟨hr1, hr2⟩ := hi.reved k r id hc
      -- other unfinished calls concern other references
      have hother : ∀ (j : Nat) (c' : Call), j ≠ k → g.calls[j]? = some c' → (∀ i, c'.stage ≠ .done i) →
          look (put g.forward r id) c'.ref = look g.forward c'.ref := by
        intro j c' hne hj hs
        rw [look_put, if_neg]
        intro e
        obtain ⟨i, hid⟩ := hone (by simp) j c' hne hj e.symm
        exact hs i hid
      constructor
      · intro r' id' hf
        simp only at hf ⊢
        rw [look_put] at hf
        split at hf
        · rename_i he; subst he; simp at hf; subst hf; exact hr1
        · exact hi.fwd r' id' hf
      · exact hi.rev
      · intro j r' id' hj
        rcases getElem?_set' hj with ⟨rfl, h⟩ | ⟨hne, hj⟩
        · simp at h
        · obtain ⟨h1, h2, h3⟩ := hi.alloc j r' id' hj
          exact ⟨h1, h2, (hother j _ hne hj (by simp)).trans h3⟩
      · intro j1 j2 r1 r2 id' g1 g2
        rcases getElem?_set' g1 with ⟨rfl, h1⟩ | ⟨hne1, h1⟩
        · simp at h1
        · rcases getElem?_set' g2 with ⟨rfl, h2⟩ | ⟨_, h2⟩
          · simp at h2
          · exact hi.allocU j1 j2 r1 r2 id' h1 h2
      · intro j r' hj
        rcases getElem?_set' hj with ⟨rfl, h⟩ | ⟨hne, hj⟩
        · simp at h
        · exact (hother j _ hne hj (by simp)).trans (hi.lock j r' hj)
      · intro j r' id' hj
        rcases getElem?_set' hj with ⟨rfl, h⟩ | ⟨hne, hj⟩
        · simp at h
        · obtain ⟨h1, h2⟩ := hi.reved j r' id' hj
          exact ⟨h1, (hother j _ hne hj (by simp)).trans h2⟩
      · intro j r' id' hj
        rcases getElem?_set' hj with ⟨rfl, h⟩ | ⟨hne, hj⟩
        · simp at h; obtain ⟨rfl, rfl⟩ := h; simp [look_put]
        · have := hi.don j r' id' hj
          simp only
          rw [look_put, if_neg]; exact this
          intro e; subst e; rw [hr2] at this; cases this
      · intro j1 j2 c1 c2 g1 g2 he hs1 hs2
        rcases getElem?_set' g1 with ⟨rfl, rfl⟩ | ⟨hne1, h1⟩
        · exact absurd rfl (hs1 id)
        · rcases getElem?_set' g2 with ⟨rfl, rfl⟩ | ⟨hne2, h2⟩
          · exact absurd rfl (hs2 id)
          · exact hi.one j1 j2 c1 c2 h1 h2 he hs1 hs2

theorem reg_run {g g' : Registry} {s : List RegStep} (hi : RegInv g) (h : g.run s = some g') :
    RegInv g' := by
  induction s generalizing g with
  | nil => simp [Registry.run] at h; subst h; exact hi
  | cons x s ih =>
    simp only [Registry.run] at h
    cases hx : g.step x with
    | none => rw [hx] at h; simp at h
    | some g1 =>
      rw [hx] at h
      refine ih ?_ h
      cases x with
      | begin r => exact reg_begin hi hx
      | advance k => exact reg_advance hi hx

theorem reg_init : RegInv Registry.init := by
  constructor <;> simp [Registry.init, look]

/-! ### Tracker -/

theorem run_snoc (t : Tracker) (s : List Step) (x : Step) :
    t.run (s ++ [x]) = (t.run s).bind (fun t => t.step x) := by
  induction s generalizing t with
  | nil => simp [Tracker.run]; cases t.step x <;> rfl
  | cons y s ih =>
    simp only [List.cons_append, Tracker.run]
    cases t.step y <;> simp [ih]

theorem disciplined_prefix {s : List Step} {x : Step} (h : Disciplined (s ++ [x])) : Disciplined s := by
  intro p y q hs
  exact h p y (q ++ [x]) (by simp [hs])

theorem disciplined_last {s : List Step} {x : Step} (h : Disciplined (s ++ [x])) :
    (∀ r, x = .inc r → ¬ Finalized r s) ∧ (∀ r, x = .dec r → finished r s < started r s) :=
  h s x [] rfl

/-- A stage from which the calling thread removes the group from the map. -/
def Stage.willMap : Stage → Prop
  | .decRead prev => prev ≤ 1
  | .finRead | .rmMap | .rmMapOnly => True
  | _ => False

/-- A stage from which the calling thread removes the group from the tracker. -/
def Stage.willInner : Stage → Prop
  | .decRead prev => prev ≤ 1
  | .finRead | .rmMap | .rmInner => True
  | _ => False

structure TrInv (m0 : List (Ref × Nat)) (r : Ref) (s : List Step) (t : Tracker) : Prop where
  le : finished r s ≤ started r s
  absent : look t.inner r = none → started r s = 0 ∨ Over r s
  present : ∀ n f, look t.inner r = some (n, f) →
    n + finished r s = started r s ∧ (f = true ↔ Finalized r s)
  guard : ∀ (k p : Nat), t.threads[k]? = some ⟨r, .decRead p⟩ →
    look t.inner r ≠ none ∧ (p ≤ 1 → finished r s = started r s)
  guardF : ∀ (k : Nat), t.threads[k]? = some ⟨r, .finRead⟩ →
    look t.inner r ≠ none ∧ Finalized r s
  rm : ∀ (k : Nat) (st : Stage), t.threads[k]? = some ⟨r, st⟩ →
    (st = .rmMap ∨ st = .rmInner ∨ st = .rmMapOnly) → Over r s
  gone : look t.refMap r = none → look m0 r = none ∨ Over r s
  progMap : Over r s → look t.refMap r ≠ none →
    ∃ (k : Nat) (st : Stage), t.threads[k]? = some ⟨r, st⟩ ∧ st.willMap
  progInner : Over r s → look t.inner r ≠ none →
    ∃ (k : Nat) (st : Stage), t.threads[k]? = some ⟨r, st⟩ ∧ st.willInner

theorem started_snoc (r : Ref) (s : List Step) (x : Step) :
    started r (s ++ [x]) = started r s + (if x = .inc r then 1 else 0) := by
  simp [started, List.count_append, List.count_singleton]

theorem finished_snoc (r : Ref) (s : List Step) (x : Step) :
    finished r (s ++ [x]) = finished r s + (if x = .dec r then 1 else 0) := by
  simp [finished, List.count_append, List.count_singleton]

theorem finalized_snoc (r : Ref) (s : List Step) (x : Step) :
    Finalized r (s ++ [x]) ↔ Finalized r s ∨ x = .finalize r := by
  simp [Finalized, eq_comm]

theorem over_snoc_other (r : Ref) (s : List Step) (x : Step) (h1 : x ≠ .inc r) (h2 : x ≠ .dec r)
    (h3 : x ≠ .finalize r) : Over r (s ++ [x]) ↔ Over r s := by
  simp [Over, started_snoc, finished_snoc, finalized_snoc, h1, h2, h3]

/-- A step that concerns another group. -/
theorem trInv_other {m0 : List (Ref × Nat)} {r : Ref} {s : List Step} {t t' : Tracker} {x : Step}
    (hi : TrInv m0 r s t) (h1 : x ≠ .inc r) (h2 : x ≠ .dec r) (h3 : x ≠ .finalize r)
    (hin : look t'.inner r = look t.inner r) (hm : look t'.refMap r = look t.refMap r)
    (hth : ∀ (k : Nat) (st : Stage), t'.threads[k]? = some ⟨r, st⟩ ↔ t.threads[k]? = some ⟨r, st⟩) :
    TrInv m0 r (s ++ [x]) t' := by
  have hs : started r (s ++ [x]) = started r s := by simp [started_snoc, h1]
  have hf : finished r (s ++ [x]) = finished r s := by simp [finished_snoc, h2]
  have hz : Finalized r (s ++ [x]) ↔ Finalized r s := by simp [finalized_snoc, h3]
  have ho := over_snoc_other r s x h1 h2 h3
  constructor
  · rw [hs, hf]; exact hi.le
  · rw [hin, hs, ho]; exact hi.absent
  · rw [hin, hs, hf, hz]; exact hi.present
  · intro k p hk; rw [hin, hs, hf]; exact hi.guard k p ((hth _ _).mp hk)
  · intro k hk; rw [hin, hz]; exact hi.guardF k ((hth _ _).mp hk)
  · intro k st hk hst; rw [ho]; exact hi.rm k st ((hth _ _).mp hk) hst
  · rw [hm, ho]; exact hi.gone
  · rw [hm, ho]
    intro a b
    obtain ⟨k, st, c, d⟩ := hi.progMap a b
    exact ⟨k, st, (hth _ _).mpr c, d⟩
  · rw [hin, ho]
    intro a b
    obtain ⟨k, st, c, d⟩ := hi.progInner a b
    exact ⟨k, st, (hth _ _).mpr c, d⟩

theorem not_guarded {t : Tracker} {r : Ref} (h : t.guarded r = false) (k : Nat) (st : Stage)
    (hk : t.threads[k]? = some ⟨r, st⟩) : (∀ p, st ≠ .decRead p) ∧ st ≠ .finRead := by
  unfold Tracker.guarded at h
  rw [List.any_eq_false] at h
  have := h _ (List.mem_of_getElem? hk)
  constructor
  · intro p e; subst e; simp at this
  · intro e; subst e; simp at this

theorem trInv_inc {m0 : List (Ref × Nat)} {r r0 : Ref} {s : List Step} {t t' : Tracker}
    (hi : TrInv m0 r s t) (hd : ¬ Finalized r0 s) (h : t.inc r0 = some t') :
    TrInv m0 r (s ++ [.inc r0]) t' := by
  unfold Tracker.inc at h
  split at h
  · simp at h
  · rename_i hg
    have hg : t.guarded r0 = false := by simpa using hg
    by_cases hr : r0 = r
    · subst hr
      have hno : ¬ Over r0 (s ++ [.inc r0]) := by
        intro ho; rcases (finalized_snoc r0 s _).mp ho.1 with h | h
        · exact hd h
        · simp at h
      have hno' : ¬ Over r0 s := fun ho => hd ho.1
      have hs : started r0 (s ++ [.inc r0]) = started r0 s + 1 := by simp [started_snoc]
      have hf : finished r0 (s ++ [.inc r0]) = finished r0 s := by simp [finished_snoc]
      have hz : Finalized r0 (s ++ [.inc r0]) ↔ Finalized r0 s := by simp [finalized_snoc]
      have key : ∃ n f, t' = { t with inner := put t.inner r0 (n, f) } ∧
          n + finished r0 s = started r0 s + 1 ∧ (f = true ↔ Finalized r0 s) := by
        cases hl : look t.inner r0 with
        | none =>
          rw [hl] at h; simp at h
          rcases hi.absent hl with h0 | h0
          · have := hi.le
            exact ⟨1, false, h.symm, by omega, by simp [hd]⟩
          · exact absurd h0 hno'
        | some v =>
          obtain ⟨n, f⟩ := v
          rw [hl] at h; simp at h
          obtain ⟨h1, h2⟩ := hi.present n f hl
          exact ⟨n + 1, f, h.symm, by omega, h2⟩
      obtain ⟨n, f, rfl, hn, hff⟩ := key
      have hlook : look (put t.inner r0 (n, f)) r0 = some (n, f) := by simp [look_put]
      constructor
      · rw [hs, hf]; have := hi.le; omega
      · simp [hlook]
      · intro n' f' h'
        simp only [hlook, Option.some.injEq, Prod.mk.injEq] at h'
        obtain ⟨rfl, rfl⟩ := h'
        rw [hs, hf, hz]; exact ⟨hn, hff⟩
      · intro k p hk; exact absurd rfl ((not_guarded hg k _ hk).1 p)
      · intro k hk; exact absurd rfl ((not_guarded hg k _ hk).2)
      · intro k st hk hst; exact absurd (hi.rm k st hk hst) hno'
      · intro h'; rcases hi.gone h' with h | h
        · exact .inl h
        · exact absurd h hno'
      · intro ho; exact absurd ho hno
      · intro ho; exact absurd ho hno
    · have hinn : look t'.inner r = look t.inner r ∧ t'.refMap = t.refMap ∧ t'.threads = t.threads := by
        cases hl : look t.inner r0 with
        | none => rw [hl] at h; simp at h; subst h; simp [look_put, hr]
        | some v => obtain ⟨n, f⟩ := v; rw [hl] at h; simp at h; subst h; simp [look_put, hr]
      refine trInv_other hi (by simp [hr]) (by simp) (by simp) hinn.1 (by rw [hinn.2.1]) ?_
      intro k st; rw [hinn.2.2]

theorem snoc_iff_ne {l : List Thread} {r r0 : Ref} {st0 : Stage} (hr : r0 ≠ r) (k : Nat) (st : Stage) :
    (l ++ [⟨r0, st0⟩])[k]? = some ⟨r, st⟩ ↔ l[k]? = some ⟨r, st⟩ := by
  constructor
  · intro h
    rcases getElem?_snoc h with h | ⟨_, h⟩
    · exact h
    · simp at h; exact absurd h.1.symm hr
  · intro h; rw [List.getElem?_append_left (List.getElem?_eq_some_iff.mp h).1]; exact h

theorem snoc_of {l : List Thread} {x : Thread} {k : Nat} {th : Thread} (h : l[k]? = some th) :
    (l ++ [x])[k]? = some th := by
  rw [List.getElem?_append_left (List.getElem?_eq_some_iff.mp h).1]; exact h

theorem trInv_dec {m0 : List (Ref × Nat)} {r r0 : Ref} {s : List Step} {t : Tracker}
    (hi : TrInv m0 r s t) (hlt : finished r0 s < started r0 s) :
    TrInv m0 r (s ++ [.dec r0]) (t.decBegin r0) := by
  unfold Tracker.decBegin
  by_cases hr : r0 = r
  · subst hr
    have hno : ¬ Over r0 s := fun ho => by have := ho.2; omega
    cases hl : look t.inner r0 with
    | none =>
      rcases hi.absent hl with h0 | h0
      · omega
      · exact absurd h0 hno
    | some v =>
      obtain ⟨n, f⟩ := v
      obtain ⟨h1, h2⟩ := hi.present n f hl
      have hw : wrappingDec n = n - 1 := by unfold wrappingDec; rw [if_neg (by omega)]
      have hs : started r0 (s ++ [.dec r0]) = started r0 s := by simp [started_snoc]
      have hf : finished r0 (s ++ [.dec r0]) = finished r0 s + 1 := by simp [finished_snoc]
      have hz : Finalized r0 (s ++ [.dec r0]) ↔ Finalized r0 s := by simp [finalized_snoc]
      have hlook : look (put t.inner r0 (wrappingDec n, f)) r0 = some (n - 1, f) := by simp [look_put, hw]
      simp only
      constructor
      · rw [hs, hf]; omega
      · simp [hlook]
      · intro n' f' h'
        simp only [hlook, Option.some.injEq, Prod.mk.injEq] at h'
        obtain ⟨rfl, rfl⟩ := h'
        rw [hs, hf, hz]; exact ⟨by omega, h2⟩
      · intro k p hk
        refine ⟨by simp [hlook], ?_⟩
        intro hp
        rcases getElem?_snoc hk with hk | ⟨_, h⟩
        · have := (hi.guard k p hk).2 hp; omega
        · simp at h; subst h; rw [hs, hf]; omega
      · intro k hk
        rcases getElem?_snoc hk with hk | ⟨_, h⟩
        · exact ⟨by simp [hlook], hz.mpr (hi.guardF k hk).2⟩
        · simp at h
      · intro k st hk hst
        rcases getElem?_snoc hk with hk | ⟨_, h⟩
        · exact absurd (hi.rm k st hk hst) hno
        · simp at h; subst h; simp at hst
      · intro h'; rcases hi.gone h' with h | h
        · exact .inl h
        · exact absurd h hno
      · intro ho _
        have : n ≤ 1 := by have := ho.2; rw [hs, hf] at this; omega
        exact ⟨t.threads.length, .decRead n, by simp, this⟩
      · intro ho _
        have : n ≤ 1 := by have := ho.2; rw [hs, hf] at this; omega
        exact ⟨t.threads.length, .decRead n, by simp, this⟩
  · cases hl : look t.inner r0 with
    | none => exact trInv_other hi (by simp) (by simp [hr]) (by simp) rfl rfl (fun _ _ => Iff.rfl)
    | some v =>
      obtain ⟨n, f⟩ := v
      exact trInv_other hi (by simp) (by simp [hr]) (by simp) (by simp [look_put, hr]) rfl
        (snoc_iff_ne hr)

theorem trInv_fin {m0 : List (Ref × Nat)} {r r0 : Ref} {s : List Step} {t : Tracker}
    (hi : TrInv m0 r s t) : TrInv m0 r (s ++ [.finalize r0]) (t.finBegin r0) := by
  unfold Tracker.finBegin
  by_cases hr : r0 = r
  · subst hr
    have hs : started r0 (s ++ [.finalize r0]) = started r0 s := by simp [started_snoc]
    have hf : finished r0 (s ++ [.finalize r0]) = finished r0 s := by simp [finished_snoc]
    have hz : Finalized r0 (s ++ [.finalize r0]) := by simp [finalized_snoc]
    have hov : Over r0 s → Over r0 (s ++ [.finalize r0]) := fun ho => ⟨hz, by rw [hs, hf]; exact ho.2⟩
    cases hl : look t.inner r0 with
    | none =>
      have hover : Over r0 (s ++ [.finalize r0]) := by
        rcases hi.absent hl with h0 | h0
        · exact ⟨hz, by rw [hs, hf]; have := hi.le; omega⟩
        · exact hov h0
      simp only
      constructor
      · rw [hs, hf]; exact hi.le
      · intro _; exact .inr hover
      · intro n f h; rw [hl] at h; cases h
      · intro k p hk
        rcases getElem?_snoc hk with hk | ⟨_, h⟩
        · exact absurd hl (hi.guard k p hk).1
        · simp at h
      · intro k hk
        rcases getElem?_snoc hk with hk | ⟨_, h⟩
        · exact absurd hl (hi.guardF k hk).1
        · simp at h
      · intro k st hk hst; exact hover
      · intro _; exact .inr hover
      · intro _ _; exact ⟨t.threads.length, .rmMapOnly, by simp, trivial⟩
      · intro _ h; exact absurd hl h
    | some v =>
      obtain ⟨n, f⟩ := v
      obtain ⟨h1, h2⟩ := hi.present n f hl
      have hlook : look (put t.inner r0 (n, true)) r0 = some (n, true) := by simp [look_put]
      simp only
      constructor
      · rw [hs, hf]; exact hi.le
      · simp [hlook]
      · intro n' f' h'
        simp only [hlook, Option.some.injEq, Prod.mk.injEq] at h'
        obtain ⟨rfl, rfl⟩ := h'
        rw [hs, hf]; exact ⟨h1, by simp [hz]⟩
      · intro k p hk
        refine ⟨by simp [hlook], ?_⟩
        intro hp
        rcases getElem?_snoc hk with hk | ⟨_, h⟩
        · rw [hs, hf]; exact (hi.guard k p hk).2 hp
        · simp at h
      · intro k hk; exact ⟨by simp [hlook], hz⟩
      · intro k st hk hst
        rcases getElem?_snoc hk with hk | ⟨_, h⟩
        · exact hov (hi.rm k st hk hst)
        · simp at h; subst h; simp at hst
      · intro h'; rcases hi.gone h' with h | h
        · exact .inl h
        · exact .inr (hov h)
      · intro _ _; exact ⟨t.threads.length, .finRead, by simp, trivial⟩
      · intro _ _; exact ⟨t.threads.length, .finRead, by simp, trivial⟩
  · cases hl : look t.inner r0 with
    | none => exact trInv_other hi (by simp) (by simp) (by simp [hr]) rfl rfl (snoc_iff_ne hr)
    | some v =>
      obtain ⟨n, f⟩ := v
      exact trInv_other hi (by simp) (by simp) (by simp [hr]) (by simp [look_put, hr]) rfl
        (snoc_iff_ne hr)

theorem set_iff_ne {l : List Thread} {r r0 : Ref} {st0 st1 : Stage} {j : Nat} (hj : l[j]? = some ⟨r0, st1⟩)
    (hr : r0 ≠ r) (k : Nat) (st : Stage) :
    (l.set j ⟨r0, st0⟩)[k]? = some ⟨r, st⟩ ↔ l[k]? = some ⟨r, st⟩ := by
  constructor
  · intro h
    rcases getElem?_set' h with ⟨_, h⟩ | ⟨_, h⟩
    · simp at h; exact absurd h.1.symm hr
    · exact h
  · intro h
    rw [List.getElem?_set_ne]; exact h
    intro e; subst e; rw [hj] at h; simp at h; exact hr h.1

theorem set_same {l : List Thread} {j : Nat} {x y : Thread} (hj : l[j]? = some y) :
    (l.set j x)[j]? = some x := by
  rw [List.getElem?_set_self (List.getElem?_eq_some_iff.mp hj).1]

theorem set_other {l : List Thread} {j k : Nat} {x y : Thread} (hk : l[k]? = some y) (hne : k ≠ j) :
    (l.set j x)[k]? = some y := by
  rw [List.getElem?_set_ne (fun e => hne e.symm)]; exact hk

/-- A call of group `r` moves from stage `st` to `st'`, without touching the maps. -/
theorem trInv_move {m0 : List (Ref × Nat)} {r : Ref} {s : List Step} {t : Tracker} {j : Nat}
    {st st' : Stage} (hi : TrInv m0 r s t) (hj : t.threads[j]? = some ⟨r, st⟩)
    (hst : st' = .rmMap ∧ Over r s ∨ st' = .done ∧ ¬ (Over r s ∧ st.willMap) ∧ ¬ (Over r s ∧ st.willInner)) :
    TrInv m0 r (s ++ [.advance j]) { t with threads := t.threads.set j ⟨r, st'⟩ } := by
  have hs : started r (s ++ [.advance j]) = started r s := by simp [started_snoc]
  have hf : finished r (s ++ [.advance j]) = finished r s := by simp [finished_snoc]
  have hz : Finalized r (s ++ [.advance j]) ↔ Finalized r s := by simp [finalized_snoc]
  have ho : Over r (s ++ [.advance j]) ↔ Over r s := over_snoc_other r s _ (by simp) (by simp) (by simp)
  have hst' : (∀ p, st' ≠ .decRead p) ∧ st' ≠ .finRead := by
    rcases hst with ⟨rfl, _⟩ | ⟨rfl, _⟩ <;> simp
  constructor
  · rw [hs, hf]; exact hi.le
  · rw [hs, ho]; exact hi.absent
  · rw [hs, hf, hz]; exact hi.present
  · intro k p hk; rw [hs, hf]
    rcases getElem?_set' hk with ⟨_, h⟩ | ⟨_, h⟩
    · simp at h; exact absurd h.symm (hst'.1 p)
    · exact hi.guard k p h
  · intro k hk
    rcases getElem?_set' hk with ⟨_, h⟩ | ⟨_, h⟩
    · simp at h; exact absurd h.symm hst'.2
    · rw [hz]; exact hi.guardF k h
  · intro k s2 hk hs2; rw [ho]
    rcases getElem?_set' hk with ⟨_, h⟩ | ⟨_, h⟩
    · simp at h; subst h
      rcases hst with ⟨_, h⟩ | ⟨rfl, _⟩
      · exact h
      · simp at hs2
    · exact hi.rm k s2 h hs2
  · rw [ho]; exact hi.gone
  · rw [ho]
    intro a b
    rcases hst with ⟨rfl, _⟩ | ⟨rfl, h1, _⟩
    · exact ⟨j, .rmMap, set_same hj, trivial⟩
    · obtain ⟨k, s2, c, d⟩ := hi.progMap a b
      have hne : k ≠ j := by
        intro e; subst e; rw [hj] at c; simp at c; subst c; exact h1 ⟨a, d⟩
      exact ⟨k, s2, set_other c hne, d⟩
  · rw [ho]
    intro a b
    rcases hst with ⟨rfl, _⟩ | ⟨rfl, _, h1⟩
    · exact ⟨j, .rmMap, set_same hj, trivial⟩
    · obtain ⟨k, s2, c, d⟩ := hi.progInner a b
      have hne : k ≠ j := by
        intro e; subst e; rw [hj] at c; simp at c; subst c; exact h1 ⟨a, d⟩
      exact ⟨k, s2, set_other c hne, d⟩

theorem trInv_advance {m0 : List (Ref × Nat)} {r : Ref} {s : List Step} {t t' : Tracker} {j : Nat}
    (hi : TrInv m0 r s t) (h : t.advance j = some t') : TrInv m0 r (s ++ [.advance j]) t' := by
  unfold Tracker.advance at h
  cases hj : t.threads[j]? with
  | none => rw [hj] at h; simp at h
  | some th =>
    obtain ⟨r0, st⟩ := th
    rw [hj] at h
    simp only at h
    have ho : Over r (s ++ [.advance j]) ↔ Over r s := over_snoc_other r s _ (by simp) (by simp) (by simp)
    have hs : started r (s ++ [.advance j]) = started r s := by simp [started_snoc]
    have hf : finished r (s ++ [.advance j]) = finished r s := by simp [finished_snoc]
    have hz : Finalized r (s ++ [.advance j]) ↔ Finalized r s := by simp [finalized_snoc]
    by_cases hr : r0 = r
    · subst hr
      cases st with
      | done => simp at h
      | decRead p =>
        simp at h; subst h
        obtain ⟨hg1, hg2⟩ := hi.guard j p hj
        refine trInv_move hi hj ?_
        cases hl : look t.inner r0 with
        | none => exact absurd hl hg1
        | some v =>
          obtain ⟨n, f⟩ := v
          obtain ⟨h1, h2⟩ := hi.present n f hl
          simp only [afterDec]
          by_cases hc : p ≤ 1 ∧ f = true
          · left; rw [if_pos (by simp [hc])]
            exact ⟨rfl, h2.mp hc.2, hg2 hc.1⟩
          · right
            rw [if_neg (by simpa using hc)]
            refine ⟨rfl, ?_, ?_⟩ <;>
              (rintro ⟨ho, hw⟩; exact hc ⟨hw, h2.mpr ho.1⟩)
      | finRead =>
        simp at h; subst h
        obtain ⟨hg1, hg2⟩ := hi.guardF j hj
        refine trInv_move hi hj ?_
        cases hl : look t.inner r0 with
        | none => exact absurd hl hg1
        | some v =>
          obtain ⟨n, f⟩ := v
          obtain ⟨h1, h2⟩ := hi.present n f hl
          simp only [afterFin]
          by_cases hc : n = 0
          · left; rw [if_pos hc]; exact ⟨rfl, hg2, by omega⟩
          · right
            rw [if_neg hc]
            refine ⟨rfl, ?_, ?_⟩ <;> (rintro ⟨ho, _⟩; have := ho.2; omega)
      | rmMap =>
        simp at h; subst h
        have hov := hi.rm j _ hj (by simp)
        constructor
        · rw [hs, hf]; exact hi.le
        · rw [hs, ho]; exact hi.absent
        · rw [hs, hf, hz]; exact hi.present
        · intro k p hk; rw [hs, hf]
          rcases getElem?_set' hk with ⟨_, h⟩ | ⟨_, h⟩
          · simp at h
          · exact hi.guard k p h
        · intro k hk
          rcases getElem?_set' hk with ⟨_, h⟩ | ⟨_, h⟩
          · simp at h
          · rw [hz]; exact hi.guardF k h
        · intro k s2 hk hs2; rw [ho]; exact hov
        · rw [ho]; intro _; exact .inr hov
        · intro _ hm; simp [look_del] at hm
        · rw [ho]; intro _ _; exact ⟨j, .rmInner, set_same hj, trivial⟩
      | rmInner =>
        simp only at h
        split at h
        · simp at h
        · rename_i hg
          have hg : t.guarded r0 = false := by simpa using hg
          simp at h; subst h
          have hov := hi.rm j _ hj (by simp)
          have hlook : look (del t.inner r0) r0 = none := by simp [look_del]
          constructor
          · rw [hs, hf]; exact hi.le
          · intro _; rw [ho]; exact .inr hov
          · intro n f h; simp [hlook] at h
          · intro k p hk
            rcases getElem?_set' hk with ⟨_, h⟩ | ⟨_, h⟩
            · simp at h
            · exact absurd rfl ((not_guarded hg k _ h).1 p)
          · intro k hk
            rcases getElem?_set' hk with ⟨_, h⟩ | ⟨_, h⟩
            · simp at h
            · exact absurd rfl ((not_guarded hg k _ h).2)
          · intro k s2 hk hs2; rw [ho]; exact hov
          · rw [ho]; exact hi.gone
          · rw [ho]
            intro a b
            obtain ⟨k, s2, c, d⟩ := hi.progMap a b
            have hne : k ≠ j := by
              intro e; subst e; rw [hj] at c; simp at c; subst c; exact d
            exact ⟨k, s2, set_other c hne, d⟩
          · intro _ hm; exact absurd hlook hm
      | rmMapOnly =>
        simp at h; subst h
        have hov := hi.rm j _ hj (by simp)
        constructor
        · rw [hs, hf]; exact hi.le
        · rw [hs, ho]; exact hi.absent
        · rw [hs, hf, hz]; exact hi.present
        · intro k p hk; rw [hs, hf]
          rcases getElem?_set' hk with ⟨_, h⟩ | ⟨_, h⟩
          · simp at h
          · exact hi.guard k p h
        · intro k hk
          rcases getElem?_set' hk with ⟨_, h⟩ | ⟨_, h⟩
          · simp at h
          · rw [hz]; exact hi.guardF k h
        · intro k s2 hk hs2; rw [ho]; exact hov
        · rw [ho]; intro _; exact .inr hov
        · intro _ hm; simp [look_del] at hm
        · rw [ho]
          intro a b
          obtain ⟨k, s2, c, d⟩ := hi.progInner a b
          have hne : k ≠ j := by
            intro e; subst e; rw [hj] at c; simp at c; subst c; exact d
          exact ⟨k, s2, set_other c hne, d⟩
    · -- a call of another group
      have hrr : ¬ r = r0 := fun e => hr e.symm
      cases st with
      | done => simp at h
      | decRead p =>
        simp at h; subst h
        exact trInv_other hi (by simp) (by simp) (by simp) rfl rfl (set_iff_ne hj hr)
      | finRead =>
        simp at h; subst h
        exact trInv_other hi (by simp) (by simp) (by simp) rfl rfl (set_iff_ne hj hr)
      | rmMap =>
        simp at h; subst h
        exact trInv_other hi (by simp) (by simp) (by simp) rfl (by simp [look_del, hrr]) (set_iff_ne hj hr)
      | rmInner =>
        simp only at h
        split at h
        · simp at h
        · simp at h; subst h
          exact trInv_other hi (by simp) (by simp) (by simp) (by simp [look_del, hrr]) rfl (set_iff_ne hj hr)
      | rmMapOnly =>
        simp at h; subst h
        exact trInv_other hi (by simp) (by simp) (by simp) rfl (by simp [look_del, hrr]) (set_iff_ne hj hr)

theorem trInv_run (m0 : List (Ref × Nat)) (r : Ref) (s : List Step) (t : Tracker) (hd : Disciplined s)
    (h : (Tracker.init m0).run s = some t) : TrInv m0 r s t := by
  induction s using List.reverseRecOn generalizing t with
  | nil =>
    simp [Tracker.run] at h; subst h
    constructor <;> simp [Tracker.init, look, started, finished, Over, Finalized]
  | append_singleton s x ih =>
    rw [run_snoc] at h
    cases hs : (Tracker.init m0).run s with
    | none => rw [hs] at h; simp at h
    | some t1 =>
      rw [hs] at h; simp only [Option.bind_some] at h
      have hi := ih t1 (disciplined_prefix hd) hs
      obtain ⟨d1, d2⟩ := disciplined_last hd
      cases x with
      | inc r0 => exact trInv_inc hi (d1 r0 rfl) h
      | dec r0 =>
        simp [Tracker.step] at h; subst h
        exact trInv_dec hi (d2 r0 rfl)
      | finalize r0 => simp [Tracker.step] at h; subst h; exact trInv_fin hi
      | advance k => exact trInv_advance hi h

end Verif.RefTracker
