import Verif.History.Spec
import Mathlib.Tactic.Common

set_option linter.unusedVariables false

namespace Verif.History

theorem modifyCurrent_get {es es' : List Entry} {cur : Option Nat} {f : Entry → Entry}
    (h : modifyCurrent es cur f = some es') (j : Nat) :
    es'[j]? = (es[j]?).map (fun a => if cur = some j then f a else a) := by
  unfold modifyCurrent at h
  cases cur with
  | none => simp at h; subst h; cases es[j]? <;> simp
  | some c =>
    simp only [modifyAt] at h
    split at h
    · simp at h; subst h
      rw [List.getElem?_modify]
      cases es[j]? <;> simp
    · simp at h

theorem modifyCurrent_length {es es' : List Entry} {cur : Option Nat} {f : Entry → Entry}
    (h : modifyCurrent es cur f = some es') : es'.length = es.length := by
  unfold modifyCurrent at h
  cases cur with
  | none => simp at h; subst h; rfl
  | some c =>
    simp only [modifyAt] at h
    split at h
    · simp at h; subst h; simp
    · simp at h

theorem modifyCurrent_isSome {es : List Entry} {cur : Option Nat} {f : Entry → Entry}
    (h : ∀ c, cur = some c → c < es.length) : ∃ es', modifyCurrent es cur f = some es' := by
  unfold modifyCurrent
  cases cur with
  | none => exact ⟨_, rfl⟩
  | some c => exact ⟨_, by simp [modifyAt, h c rfl]; rfl⟩

structure Inv (h : Hist) : Prop where
  nav : ∀ (i : Nat) (e : Entry), h.entries[i]? = some e → e.navigable = true
  curLt : ∀ c, h.current = some c → c < h.entries.length
  curNone : h.current = none → h.entries = []
  parNone : ∀ (i : Nat) (e : Entry), h.entries[i]? = some e → (e.parent = none ↔ i = 0)
  parLt : ∀ (i : Nat) (e : Entry) (p : Nat), h.entries[i]? = some e → e.parent = some p → p < i
  child : ∀ (i : Nat) (e : Entry) (c : Nat), h.entries[i]? = some e →
    (c ∈ e.children ↔ ∃ e' : Entry, h.entries[c]? = some e' ∧ e'.parent = some i)
  nodup : ∀ (i : Nat) (e : Entry), h.entries[i]? = some e → e.children.Nodup

theorem inv_init : Inv init := by
  constructor <;> simp [init]

/-- Changing anything but `navigable`, `parent`, `children` in place keeps the invariant. -/
theorem inv_of_struct {es es' : List Entry} {cur cur' : Option Nat} (hi : Inv ⟨es, cur⟩)
    (hl : es'.length = es.length)
    (hg : ∀ (j : Nat) (e' : Entry), es'[j]? = some e' → ∃ e : Entry, es[j]? = some e ∧ e'.navigable = e.navigable ∧
      e'.parent = e.parent ∧ e'.children = e.children)
    (hc : ∀ c, cur' = some c → c < es.length) (hn : cur' = none → es = []) : Inv ⟨es', cur'⟩ := by
  have hg2 : ∀ (j : Nat) (e : Entry), es[j]? = some e → ∃ e' : Entry, es'[j]? = some e' ∧ e'.navigable = e.navigable ∧
      e'.parent = e.parent ∧ e'.children = e.children := by
    intro j e he
    have hj : j < es'.length := by rw [hl]; exact (List.getElem?_eq_some_iff.mp he).1
    obtain ⟨e0, h0, hr⟩ := hg j es'[j] (List.getElem?_eq_getElem hj)
    rw [he] at h0; cases h0
    exact ⟨_, List.getElem?_eq_getElem hj, hr⟩
  constructor
  · intro i e he; obtain ⟨e0, h0, h1, h2, h3⟩ := hg i e he; rw [h1]; exact hi.nav i e0 h0
  · intro c h; simp only at h ⊢; rw [hl]; exact hc c h
  · intro h; have := hn h; simp only; rw [← List.length_eq_zero_iff, hl, this]; rfl
  · intro i e he; obtain ⟨e0, h0, h1, h2, h3⟩ := hg i e he; rw [h2]; exact hi.parNone i e0 h0
  · intro i e p he; obtain ⟨e0, h0, h1, h2, h3⟩ := hg i e he; rw [h2]; exact hi.parLt i e0 p h0
  · intro i e c he; obtain ⟨e0, h0, h1, h2, h3⟩ := hg i e he
    rw [h3, hi.child i e0 c h0]
    constructor
    · rintro ⟨e', h4, h5⟩
      obtain ⟨e2, h6, _, h7, _⟩ := hg2 c e' h4
      exact ⟨e2, h6, by rw [h7, h5]⟩
    · rintro ⟨e', h4, h5⟩
      obtain ⟨e2, h6, _, h7, _⟩ := hg c e' h4
      exact ⟨e2, h6, by rw [← h7, h5]⟩
  · intro i e he; obtain ⟨e0, h0, h1, h2, h3⟩ := hg i e he; rw [h3]; exact hi.nodup i e0 h0

theorem inv_modify {es es' : List Entry} {cur cur' t : Option Nat} {f : Entry → Entry}
    (hi : Inv ⟨es, cur⟩) (hm : modifyCurrent es t f = some es')
    (hf : ∀ e, (f e).navigable = e.navigable ∧ (f e).parent = e.parent ∧ (f e).children = e.children)
    (hc : ∀ c, cur' = some c → c < es.length) (hn : cur' = none → es = []) : Inv ⟨es', cur'⟩ := by
  refine inv_of_struct hi (modifyCurrent_length hm) ?_ hc hn
  intro j e' he'
  rw [modifyCurrent_get hm] at he'
  cases hj : es[j]? with
  | none => rw [hj] at he'; simp at he'
  | some e =>
    rw [hj] at he'; simp at he'
    refine ⟨e, rfl, ?_⟩
    subst he'
    split
    · exact hf e
    · exact ⟨rfl, rfl, rfl⟩

/-- What `push` stores. -/
theorem push_spec {h h' : Hist} {u : Str} {t : Option Str} {id : Nat}
    (hp : push h u t = some (h', id)) (hcl : ∀ c, h.current = some c → c < h.entries.length) :
    id = h.entries.length ∧ h'.current = some id ∧ h'.entries.length = h.entries.length + 1 ∧
    h'.entries[id]? = some ⟨u, t, (0, 0), true, h.current, [], none⟩ ∧
    ∀ j, j < h.entries.length → h'.entries[j]? = (h.entries[j]?).map (fun a =>
      if h.current = some j then { a with children := a.children ++ [id], preferredChild := some id }
      else a) := by
  unfold push at hp
  simp only at hp
  split at hp
  · simp at hp
  · rename_i es hm
    simp at hp
    obtain ⟨rfl, rfl⟩ := hp
    have hg := modifyCurrent_get hm
    refine ⟨rfl, rfl, by simp [modifyCurrent_length hm], ?_, ?_⟩
    · rw [hg]
      have : h.current ≠ some h.entries.length := fun e => by have := hcl _ e; omega
      simp [this]
    · intro j hj
      rw [hg, List.getElem?_append_left hj]

theorem inv_push {h h' : Hist} {u : Str} {t : Option Str} {id : Nat} (hi : Inv h)
    (hp : push h u t = some (h', id)) : Inv h' := by
  obtain ⟨rfl, hcur, hlen, hnew, hold⟩ := push_spec hp hi.curLt
  -- old entries keep their parent; children only grow at the current one
  have hget : ∀ (i : Nat) (e : Entry), h'.entries[i]? = some e → (i = h.entries.length ∧
      e = ⟨u, t, (0, 0), true, h.current, [], none⟩) ∨ (i < h.entries.length ∧
      ∃ e0, h.entries[i]? = some e0 ∧ e.navigable = e0.navigable ∧ e.parent = e0.parent ∧
        e.children = (if h.current = some i then e0.children ++ [h.entries.length] else e0.children)) := by
    intro i e he
    have hlt : i < h'.entries.length := (List.getElem?_eq_some_iff.mp he).1
    rw [hlen] at hlt
    by_cases hi' : i = h.entries.length
    · left; subst hi'; rw [hnew] at he; cases he; exact ⟨rfl, rfl⟩
    · right
      have hlt' : i < h.entries.length := by omega
      refine ⟨hlt', ?_⟩
      rw [hold i hlt', List.getElem?_eq_getElem hlt'] at he
      simp at he
      refine ⟨_, List.getElem?_eq_getElem hlt', ?_⟩
      subst he
      split <;> simp
  constructor
  · intro i e he
    rcases hget i e he with ⟨_, rfl⟩ | ⟨_, e0, h0, h1, _⟩
    · rfl
    · rw [h1]; exact hi.nav i e0 h0
  · intro c hc; rw [hcur] at hc; cases hc; omega
  · intro hc; rw [hcur] at hc; cases hc
  · intro i e he
    rcases hget i e he with ⟨rfl, rfl⟩ | ⟨_, e0, h0, _, h2, _⟩
    · constructor
      · intro hn; simp at hn; rw [hi.curNone hn]; rfl
      · intro hz
        cases hc : h.current with
        | none => rfl
        | some c => have := hi.curLt c hc; omega
    · rw [h2]; exact hi.parNone i e0 h0
  · intro i e p he hp'
    rcases hget i e he with ⟨rfl, rfl⟩ | ⟨_, e0, h0, _, h2, _⟩
    · exact hi.curLt p hp'
    · rw [h2] at hp'; exact hi.parLt i e0 p h0 hp'
  · intro i e c he
    rcases hget i e he with ⟨rfl, rfl⟩ | ⟨hlt, e0, h0, _, h2, h3⟩
    · simp only [List.not_mem_nil, false_iff]
      rintro ⟨e', he', hp'⟩
      rcases hget c e' he' with ⟨rfl, rfl⟩ | ⟨hlt, e0, h0, _, h2, _⟩
      · simp at hp'; have := hi.curLt _ hp'; omega
      · rw [h2] at hp'; have := hi.parLt c e0 _ h0 hp'; omega
    · rw [h3]
      constructor
      · intro hm
        have hcases : c ∈ e0.children ∨ (h.current = some i ∧ c = h.entries.length) := by
          split at hm
          · rename_i hci
            rcases List.mem_append.mp hm with h | h
            · exact .inl h
            · exact .inr ⟨hci, by simpa using h⟩
          · exact .inl hm
        rcases hcases with hm | ⟨hci, rfl⟩
        · obtain ⟨e', h4, h5⟩ := (hi.child i e0 c h0).mp hm
          have hclt : c < h.entries.length := (List.getElem?_eq_some_iff.mp h4).1
          have h6 := hold c hclt
          rw [h4] at h6; simp at h6
          refine ⟨_, h6, ?_⟩
          split <;> simp [h5]
        · exact ⟨_, hnew, hci⟩
      · rintro ⟨e', he', hp'⟩
        rcases hget c e' he' with ⟨rfl, rfl⟩ | ⟨hlt', e1, h1, _, h4, _⟩
        · simp at hp'; simp [hp']
        · rw [h4] at hp'
          have := (hi.child i e0 c h0).mpr ⟨e1, h1, hp'⟩
          split <;> simp [this]
  · intro i e he
    rcases hget i e he with ⟨rfl, rfl⟩ | ⟨hlt, e0, h0, _, h2, h3⟩
    · simp
    · rw [h3]
      have hn := hi.nodup i e0 h0
      split
      · refine List.nodup_append.mpr ⟨hn, by simp, ?_⟩
        intro a ha b hb
        simp at hb; subst hb
        obtain ⟨e', h4, _⟩ := (hi.child i e0 a h0).mp ha
        have := (List.getElem?_eq_some_iff.mp h4).1
        omega
      · exact hn

theorem push_isSome {h : Hist} (hi : Inv h) (u : Str) (t : Option Str) :
    ∃ r, push h u t = some r := by
  unfold push
  obtain ⟨es', he⟩ := modifyCurrent_isSome (es := h.entries ++ [⟨u, t, (0, 0), true, h.current, [], none⟩])
    (cur := h.current)
    (f := (fun p => { p with children := p.children ++ [h.entries.length], preferredChild := some h.entries.length }))
    (by intro c hc; have := hi.curLt c hc; simp; omega)
  simp only [he]
  exact ⟨_, rfl⟩

/-! ### Back -/

theorem backTarget_eq {h : Hist} (hi : Inv h) :
    backTarget h = some (match h.current with
      | none => none
      | some c => (h.entries[c]?).bind (·.parent)) := by
  unfold backTarget
  cases hc : h.current with
  | none => rfl
  | some c =>
    have hlt := hi.curLt c hc
    simp only [List.getElem?_eq_getElem hlt]
    cases hp : (h.entries[c]).parent with
    | none => cases h.entries.length <;> simp [backLoop, hp]
    | some p =>
      have hpl := hi.parLt c _ p (List.getElem?_eq_getElem hlt) hp
      have hpl' : p < h.entries.length := by omega
      obtain ⟨n, hn⟩ : ∃ n, h.entries.length = n + 1 := ⟨h.entries.length - 1, by omega⟩
      rw [hn]
      have hnav := hi.nav p _ (List.getElem?_eq_getElem hpl')
      simp [backLoop, List.getElem?_eq_getElem hpl', hnav, hp]

theorem goBack_eq {h : Hist} (hi : Inv h) {c : Nat} {e : Entry} (hc : h.current = some c)
    (he : h.entries[c]? = some e) :
    goBack h = some (match e.parent with
      | none => (h, none)
      | some p => (⟨h.entries, some p⟩, some p)) := by
  unfold goBack
  rw [backTarget_eq hi, hc]
  simp only [he, Option.bind_some]
  cases e.parent <;> rfl

theorem goBack_spec {h h' : Hist} {r : Option Nat} (hi : Inv h) (hb : goBack h = some (h', r)) :
    h'.entries = h.entries ∧ (r = none → h' = h) ∧
    (∀ p, r = some p → h'.current = some p ∧ p < h.entries.length) := by
  unfold goBack at hb
  rw [backTarget_eq hi] at hb
  cases hc : h.current with
  | none =>
    rw [hc] at hb; simp at hb; obtain ⟨rfl, rfl⟩ := hb; simp
  | some c =>
    rw [hc] at hb; simp only at hb
    have hlt := hi.curLt c hc
    rw [List.getElem?_eq_getElem hlt] at hb
    simp only [Option.bind_some] at hb
    cases hp : (h.entries[c]).parent with
    | none => rw [hp] at hb; simp at hb; obtain ⟨rfl, rfl⟩ := hb; simp
    | some p =>
      rw [hp] at hb; simp at hb; obtain ⟨rfl, rfl⟩ := hb
      have hpl := hi.parLt c _ p (List.getElem?_eq_getElem hlt) hp
      refine ⟨rfl, by simp, ?_⟩
      intro q hq; cases hq; exact ⟨rfl, by omega⟩

theorem goBack_isSome {h : Hist} (hi : Inv h) : ∃ r, goBack h = some r := by
  unfold goBack
  rw [backTarget_eq hi]
  cases (match h.current with
      | none => none
      | some c => (h.entries[c]?).bind (·.parent)) <;> simp

/-! ### Forward -/

theorem navigableChildren_eq {es : List Entry} (l : List Nat)
    (h : ∀ c ∈ l, ∃ e, es[c]? = some e ∧ e.navigable = true) : navigableChildren es l = some l := by
  induction l with
  | nil => rfl
  | cons c l ih =>
    obtain ⟨e, he, hn⟩ := h c (by simp)
    simp [navigableChildren, he, ih (fun c hc => h c (by simp [hc])), hn]

theorem children_ok {h : Hist} (hi : Inv h) {c : Nat} {e : Entry} (he : h.entries[c]? = some e) :
    ∀ k ∈ e.children, ∃ e, h.entries[k]? = some e ∧ e.navigable = true := by
  intro k hk
  obtain ⟨e', h1, _⟩ := (hi.child c e k he).mp hk
  exact ⟨e', h1, hi.nav k e' h1⟩

theorem swap0_perm (l : List Nat) (pos : Nat) : (swap0 l pos).Perm l := by
  unfold swap0
  split
  · rename_i a rest x hx
    cases pos with
    | zero => simp at hx; subst hx; simp
    | succ n =>
      simp at hx
      simp only [List.set_cons_zero, List.set_cons_succ]
      obtain ⟨hn, rfl⟩ := List.getElem?_eq_some_iff.mp hx
      have h1 : rest = rest.take n ++ rest[n] :: rest.drop (n+1) := by
        simp
      have h2 : rest.set n a = rest.take n ++ a :: rest.drop (n+1) := List.set_eq_take_append_cons_drop .. |>.trans (by simp [hn])
      rw [h2]
      conv => rhs; rw [h1]
      refine ((List.perm_middle (l₁ := List.take n rest)).cons _).trans ?_
      refine (List.Perm.swap _ _ _).trans ?_
      exact (List.perm_middle.symm).cons _
  · exact List.Perm.refl _

theorem swap0_head {l : List Nat} {pos x : Nat} (h : l[pos]? = some x) :
    (swap0 l pos).head? = some x := by
  unfold swap0
  cases l with
  | nil => simp at h
  | cons a rest =>
    rw [h]
    cases pos with
    | zero => simp at h; simp [h]
    | succ n => simp

theorem preferFirst_perm (l : List Nat) (p : Option Nat) : (preferFirst l p).Perm l := by
  unfold preferFirst
  split
  · exact List.Perm.refl _
  · split
    · exact List.Perm.refl _
    · exact swap0_perm _ _

theorem preferFirst_head {l : List Nat} {p : Nat} (h : p ∈ l) :
    (preferFirst l (some p)).head? = some p := by
  unfold preferFirst
  simp only
  cases hf : l.findIdx? (· == p) with
  | none =>
    rw [List.findIdx?_eq_none_iff] at hf
    have := hf p h; simp at this
  | some pos =>
    simp only
    rw [List.findIdx?_eq_some_iff_getElem] at hf
    obtain ⟨hl, h1, _⟩ := hf
    simp at h1
    exact swap0_head (by rw [List.getElem?_eq_getElem hl, h1])

theorem forwardTargets_eq {h : Hist} (hi : Inv h) {c : Nat} {e : Entry} (hc : h.current = some c)
    (he : h.entries[c]? = some e) :
    forwardTargets h = some (preferFirst e.children e.preferredChild) := by
  unfold forwardTargets
  simp [hc, he, navigableChildren_eq _ (children_ok hi he)]

theorem current_entry {h : Hist} (hi : Inv h) {c : Nat} (hc : h.current = some c) :
    ∃ e, h.entries[c]? = some e := ⟨_, List.getElem?_eq_getElem (hi.curLt c hc)⟩

theorem forwardTargets_isSome {h : Hist} (hi : Inv h) : ∃ l, forwardTargets h = some l := by
  cases hc : h.current with
  | none => exact ⟨[], by simp [forwardTargets, hc]⟩
  | some c =>
    obtain ⟨e, he⟩ := current_entry hi hc
    exact ⟨_, forwardTargets_eq hi hc he⟩

theorem mem_forwardTargets {h : Hist} (hi : Inv h) {l : List Nat} (hl : forwardTargets h = some l)
    (k : Nat) : k ∈ l ↔ ∃ c e, h.current = some c ∧ h.entries[k]? = some e ∧ e.parent = some c := by
  cases hc : h.current with
  | none => simp [forwardTargets, hc] at hl; subst hl; simp
  | some c =>
    obtain ⟨e, he⟩ := current_entry hi hc
    rw [forwardTargets_eq hi hc he] at hl
    simp at hl
    rw [← hl, (preferFirst_perm _ _).mem_iff, hi.child c e k he]
    simp

theorem pickForward_mem {l : List Nat} {e : Option Nat} {id : Nat} (h : pickForward l e = some id) :
    id ∈ l := by
  unfold pickForward at h
  split at h
  · split at h
    · simp at h; subst h; assumption
    · simp at h
  · exact List.mem_of_mem_head? h

theorem goForward_spec {h h' : Hist} {x r : Option Nat} (hi : Inv h)
    (hf : goForward h x = some (h', r)) :
    (r = none → h' = h) ∧
    (∀ id, r = some id → ∃ c e es, h.current = some c ∧ h.entries[id]? = some e ∧ e.parent = some c ∧
      modifyCurrent h.entries h.current (fun e => { e with preferredChild := some id }) = some es ∧
      h' = ⟨es, some id⟩) := by
  unfold goForward at hf
  cases hft : forwardTargets h with
  | none => rw [hft] at hf; simp at hf
  | some l =>
    rw [hft] at hf; simp only at hf
    cases hp : pickForward l x with
    | none => rw [hp] at hf; simp at hf; obtain ⟨rfl, rfl⟩ := hf; simp
    | some id =>
      rw [hp] at hf; simp only at hf
      cases hm : modifyCurrent h.entries h.current (fun e => { e with preferredChild := some id }) with
      | none => rw [hm] at hf; simp at hf
      | some es =>
        rw [hm] at hf; simp at hf; obtain ⟨rfl, rfl⟩ := hf
        refine ⟨by simp, ?_⟩
        intro id' h'; cases h'
        obtain ⟨c, e, h1, h2, h3⟩ := (mem_forwardTargets hi hft id).mp (pickForward_mem hp)
        exact ⟨c, e, es, h1, h2, h3, hm, rfl⟩

theorem goForward_isSome {h : Hist} (hi : Inv h) (x : Option Nat) : ∃ r, goForward h x = some r := by
  unfold goForward
  obtain ⟨l, hl⟩ := forwardTargets_isSome hi
  rw [hl]
  simp only
  cases pickForward l x with
  | none => exact ⟨_, rfl⟩
  | some id =>
    obtain ⟨es, he⟩ := modifyCurrent_isSome (f := (fun e => { e with preferredChild := some id })) hi.curLt
    simp [he]

theorem goTo_spec {h h' : Hist} {id : Nat} {r : Option Nat} (hi : Inv h)
    (hf : goTo h id = some (h', r)) :
    (r = none → h' = h ∧ h.entries[id]? = none) ∧
    (∀ k, r = some k → k = id ∧ ∃ e es, h.entries[id]? = some e ∧
      modifyCurrent h.entries e.parent (fun e => { e with preferredChild := some id }) = some es ∧
      h' = ⟨es, some id⟩) := by
  unfold goTo at hf
  cases he : h.entries[id]? with
  | none => rw [he] at hf; simp at hf; obtain ⟨rfl, rfl⟩ := hf; simp
  | some e =>
    rw [he] at hf
    simp only [hi.nav id e he, if_true] at hf
    cases hm : modifyCurrent h.entries e.parent (fun p => { p with preferredChild := some id }) with
    | none => rw [hm] at hf; simp at hf
    | some es =>
      rw [hm] at hf; simp at hf; obtain ⟨rfl, rfl⟩ := hf
      refine ⟨by simp, ?_⟩
      intro k hk; cases hk
      exact ⟨rfl, e, es, rfl, hm, rfl⟩

theorem goTo_isSome {h : Hist} (hi : Inv h) (id : Nat) : ∃ r, goTo h id = some r := by
  unfold goTo
  cases he : h.entries[id]? with
  | none => exact ⟨_, rfl⟩
  | some e =>
    simp only [hi.nav id e he, if_true]
    have hlt := (List.getElem?_eq_some_iff.mp he).1
    obtain ⟨es, hes⟩ := modifyCurrent_isSome (es := h.entries) (cur := e.parent)
      (f := (fun e => { e with preferredChild := some id }))
      (by intro c hc; have := hi.parLt id e c he hc; omega)
    simp [hes]

/-! ### One step -/

theorem inv_goBack {h h' : Hist} {r : Option Nat} (hi : Inv h) (hb : goBack h = some (h', r)) :
    Inv h' := by
  obtain ⟨h1, h2, h3⟩ := goBack_spec hi hb
  cases r with
  | none => rw [h2 rfl]; exact hi
  | some p =>
    obtain ⟨h4, h5⟩ := h3 p rfl
    obtain ⟨es, cur⟩ := h'
    simp only at h1 h4; subst h1; subst h4
    refine inv_of_struct (es := h.entries) (cur := h.current) hi rfl ?_ ?_ (by simp)
    · intro j e he; exact ⟨e, he, rfl, rfl, rfl⟩
    · intro c hc; cases hc; exact h5

theorem inv_goForward {h h' : Hist} {x r : Option Nat} (hi : Inv h)
    (hf : goForward h x = some (h', r)) : Inv h' := by
  obtain ⟨h1, h2⟩ := goForward_spec hi hf
  cases r with
  | none => rw [h1 rfl]; exact hi
  | some id =>
    obtain ⟨c, e, es, hc, he, hp, hm, rfl⟩ := h2 id rfl
    refine inv_modify (cur := h.current) hi hm (by simp) ?_ (by simp)
    intro k hk; cases hk; exact (List.getElem?_eq_some_iff.mp he).1

theorem inv_goTo {h h' : Hist} {id : Nat} {r : Option Nat} (hi : Inv h)
    (hf : goTo h id = some (h', r)) : Inv h' := by
  obtain ⟨h1, h2⟩ := goTo_spec hi hf
  cases r with
  | none => rw [(h1 rfl).1]; exact hi
  | some k =>
    obtain ⟨rfl, e, es, he, hm, rfl⟩ := h2 k rfl
    refine inv_modify (cur := h.current) hi hm (by simp) ?_ (by simp)
    intro k hk; cases hk; exact (List.getElem?_eq_some_iff.mp he).1

theorem inv_rewrite {h h' : Hist} {f : Entry → Entry} (hi : Inv h)
    (hm : (modifyCurrent h.entries h.current f).map (fun es => (⟨es, h.current⟩ : Hist)) = some h')
    (hf : ∀ e, (f e).navigable = e.navigable ∧ (f e).parent = e.parent ∧ (f e).children = e.children) :
    Inv h' := by
  cases hm' : modifyCurrent h.entries h.current f with
  | none => rw [hm'] at hm; simp at hm
  | some es =>
    rw [hm'] at hm; simp at hm; subst hm
    exact inv_modify (cur := h.current) hi hm' hf hi.curLt hi.curNone

theorem map_fst_some {α β : Type} {x : Option (α × β)} {a : α} (h : x.map (·.1) = some a) :
    ∃ b, x = some (a, b) := by
  cases x with
  | none => simp at h
  | some v => obtain ⟨a', b⟩ := v; simp at h; subst h; exact ⟨b, rfl⟩

theorem inv_step {h h' : Hist} {o : Op} (hi : Inv h) (hs : step h o = some h') : Inv h' := by
  cases o with
  | push u t => obtain ⟨b, hb⟩ := map_fst_some hs; exact inv_push hi hb
  | replaceUrl u => exact inv_rewrite hi hs (by simp)
  | setTitle t => exact inv_rewrite hi hs (by simp)
  | setScroll x y => exact inv_rewrite hi hs (by simp)
  | goBack => obtain ⟨b, hb⟩ := map_fst_some hs; exact inv_goBack hi hb
  | goForward x => obtain ⟨b, hb⟩ := map_fst_some hs; exact inv_goForward hi hb
  | goTo i => obtain ⟨b, hb⟩ := map_fst_some hs; exact inv_goTo hi hb

theorem step_isSome {h : Hist} (hi : Inv h) (o : Op) : ∃ h', step h o = some h' := by
  cases o with
  | push u t => obtain ⟨r, hr⟩ := push_isSome hi u t; exact ⟨_, by simp [step, hr]; rfl⟩
  | replaceUrl u =>
    obtain ⟨es, he⟩ := modifyCurrent_isSome (f := (fun e => { e with url := u })) hi.curLt
    exact ⟨_, by simp [step, replaceCurrentUrl, he]; rfl⟩
  | setTitle u =>
    obtain ⟨es, he⟩ := modifyCurrent_isSome (f := (fun e => { e with title := u })) hi.curLt
    exact ⟨_, by simp [step, setCurrentTitle, he]; rfl⟩
  | setScroll x y =>
    obtain ⟨es, he⟩ := modifyCurrent_isSome (f := (fun e => { e with scroll := (x, y) })) hi.curLt
    exact ⟨_, by simp [step, setCurrentScroll, he]; rfl⟩
  | goBack => obtain ⟨r, hr⟩ := goBack_isSome hi; exact ⟨_, by simp [step, hr]; rfl⟩
  | goForward x => obtain ⟨r, hr⟩ := goForward_isSome hi x; exact ⟨_, by simp [step, hr]; rfl⟩
  | goTo i => obtain ⟨r, hr⟩ := goTo_isSome hi i; exact ⟨_, by simp [step, hr]; rfl⟩

theorem inv_run {h h' : Hist} {ops : List Op} (hi : Inv h) (hr : run h ops = some h') : Inv h' := by
  induction ops generalizing h with
  | nil => simp [run] at hr; subst hr; exact hi
  | cons o ops ih =>
    simp only [run] at hr
    cases hs : step h o with
    | none => rw [hs] at hr; simp at hr
    | some h1 => rw [hs] at hr; exact ih (inv_step hi hs) hr

theorem run_isSome {h : Hist} (hi : Inv h) (ops : List Op) : ∃ h', run h ops = some h' := by
  induction ops generalizing h with
  | nil => exact ⟨h, rfl⟩
  | cons o ops ih =>
    obtain ⟨h1, hs⟩ := step_isSome hi o
    obtain ⟨h2, h3⟩ := ih (inv_step hi hs)
    exact ⟨h2, by simp [run, hs, h3]⟩

theorem inv_reachable {h : Hist} (hr : Reachable h) : Inv h := by
  obtain ⟨ops, ho⟩ := hr; exact inv_run inv_init ho

theorem run_append (h : Hist) (a b : List Op) :
    run h (a ++ b) = (run h a).bind (fun h => run h b) := by
  induction a generalizing h with
  | nil => rfl
  | cons o a ih =>
    simp only [List.cons_append, run]
    cases step h o <;> simp [ih]

theorem reachable_run {h h' : Hist} {ops : List Op} (hr : Reachable h) (h1 : run h ops = some h') :
    Reachable h' := by
  obtain ⟨o, ho⟩ := hr
  exact ⟨o ++ ops, by rw [run_append, ho]; exact h1⟩

/-- What one call does to an existing entry. -/
theorem step_entry {h h' : Hist} {o : Op} (hi : Inv h) (hs : step h o = some h') {id : Nat} {e : Entry}
    (he : h.entries[id]? = some e) :
    ∃ e', h'.entries[id]? = some e' ∧ e'.parent = e.parent ∧ (∀ c ∈ e.children, c ∈ e'.children) ∧
      e'.navigable = e.navigable ∧
      ((o.rewrites = false ∨ h.current ≠ some id) →
        e'.url = e.url ∧ e'.title = e.title ∧ e'.scroll = e.scroll) := by
  have hmod : ∀ (t : Option Nat) (f : Entry → Entry) (es : List Entry),
      modifyCurrent h.entries t f = some es → es[id]? = some (if t = some id then f e else e) := by
    intro t f es hm; rw [modifyCurrent_get hm, he]; rfl
  have hlt := (List.getElem?_eq_some_iff.mp he).1
  cases o with
  | push u t =>
    obtain ⟨b, hb⟩ := map_fst_some hs
    obtain ⟨rfl, _, _, _, hold⟩ := push_spec hb hi.curLt
    have := hold id hlt
    rw [he] at this; simp at this
    refine ⟨_, this, ?_⟩
    split <;> simp +contextual
  | replaceUrl u =>
    simp only [step, replaceCurrentUrl, Option.map_eq_some_iff] at hs
    obtain ⟨es, hm, rfl⟩ := hs
    refine ⟨_, hmod _ _ _ hm, ?_⟩
    split <;> simp_all [Op.rewrites]
  | setTitle u =>
    simp only [step, setCurrentTitle, Option.map_eq_some_iff] at hs
    obtain ⟨es, hm, rfl⟩ := hs
    refine ⟨_, hmod _ _ _ hm, ?_⟩
    split <;> simp_all [Op.rewrites]
  | setScroll x y =>
    simp only [step, setCurrentScroll, Option.map_eq_some_iff] at hs
    obtain ⟨es, hm, rfl⟩ := hs
    refine ⟨_, hmod _ _ _ hm, ?_⟩
    split <;> simp_all [Op.rewrites]
  | goBack =>
    obtain ⟨b, hb⟩ := map_fst_some hs
    rw [(goBack_spec hi hb).1]
    exact ⟨e, he, rfl, fun _ h => h, rfl, fun _ => ⟨rfl, rfl, rfl⟩⟩
  | goForward x =>
    obtain ⟨b, hb⟩ := map_fst_some hs
    obtain ⟨h1, h2⟩ := goForward_spec hi hb
    cases b with
    | none => rw [h1 rfl]; exact ⟨e, he, rfl, fun _ h => h, rfl, fun _ => ⟨rfl, rfl, rfl⟩⟩
    | some k =>
      obtain ⟨c, e1, es, _, _, _, hm, rfl⟩ := h2 k rfl
      refine ⟨_, hmod _ _ _ hm, ?_⟩
      split <;> simp
  | goTo i =>
    obtain ⟨b, hb⟩ := map_fst_some hs
    obtain ⟨h1, h2⟩ := goTo_spec hi hb
    cases b with
    | none => rw [(h1 rfl).1]; exact ⟨e, he, rfl, fun _ h => h, rfl, fun _ => ⟨rfl, rfl, rfl⟩⟩
    | some k =>
      obtain ⟨rfl, e1, es, _, hm, rfl⟩ := h2 k rfl
      refine ⟨_, hmod _ _ _ hm, ?_⟩
      split <;> simp

theorem step_length {h h' : Hist} {o : Op} (hi : Inv h) (hs : step h o = some h') :
    h'.entries.length = h.entries.length + o.visits := by
  cases o with
  | push u t => obtain ⟨b, hb⟩ := map_fst_some hs; exact (push_spec hb hi.curLt).2.2.1
  | replaceUrl u =>
    simp only [step, replaceCurrentUrl, Option.map_eq_some_iff] at hs
    obtain ⟨es, hm, rfl⟩ := hs; simp [modifyCurrent_length hm, Op.visits]
  | setTitle u =>
    simp only [step, setCurrentTitle, Option.map_eq_some_iff] at hs
    obtain ⟨es, hm, rfl⟩ := hs; simp [modifyCurrent_length hm, Op.visits]
  | setScroll x y =>
    simp only [step, setCurrentScroll, Option.map_eq_some_iff] at hs
    obtain ⟨es, hm, rfl⟩ := hs; simp [modifyCurrent_length hm, Op.visits]
  | goBack => obtain ⟨b, hb⟩ := map_fst_some hs; rw [(goBack_spec hi hb).1]; rfl
  | goForward x =>
    obtain ⟨b, hb⟩ := map_fst_some hs
    obtain ⟨h1, h2⟩ := goForward_spec hi hb
    cases b with
    | none => rw [h1 rfl]; rfl
    | some k => obtain ⟨c, e1, es, _, _, _, hm, rfl⟩ := h2 k rfl; simp [modifyCurrent_length hm, Op.visits]
  | goTo i =>
    obtain ⟨b, hb⟩ := map_fst_some hs
    obtain ⟨h1, h2⟩ := goTo_spec hi hb
    cases b with
    | none => rw [(h1 rfl).1]; rfl
    | some k => obtain ⟨rfl, e1, es, _, hm, rfl⟩ := h2 k rfl; simp [modifyCurrent_length hm, Op.visits]

/-! ### Back then forward -/

/-- The entry at `id`, if it has a predecessor, is that predecessor's preferred child. -/
def PrefAt (es : List Entry) (id : Nat) : Prop :=
  ∀ (e : Entry) (p : Nat) (ep : Entry), es[id]? = some e → e.parent = some p → es[p]? = some ep → ep.preferredChild = some id

theorem back_forward_of_pref {h h' : Hist} {left id : Nat} (hi : Inv h) (hc : h.current = some left)
    (hp : PrefAt h.entries left) (hb : goBack h = some (h', some id)) :
    ∃ h'', goForward h' none = some (h'', some left) ∧ h''.current = some left := by
  obtain ⟨e, he⟩ := current_entry hi hc
  rw [goBack_eq hi hc he] at hb
  cases hpar : e.parent with
  | none => rw [hpar] at hb; simp at hb
  | some p =>
    rw [hpar] at hb; simp at hb; obtain ⟨rfl, rfl⟩ := hb
    have hi' : Inv ⟨h.entries, some p⟩ := inv_goBack (r := some p) hi (by
      rw [goBack_eq hi hc he, hpar])
    obtain ⟨ep, hep⟩ := current_entry hi' rfl
    have hpref := hp e p ep he hpar hep
    have hft := forwardTargets_eq hi' rfl hep
    have hmem : left ∈ ep.children := (hi.child p ep left hep).mpr ⟨e, he, hpar⟩
    have hhead := preferFirst_head hmem
    rw [hpref] at hft
    obtain ⟨es, hes⟩ := modifyCurrent_isSome (es := h.entries) (cur := some p)
      (f := (fun e => { e with preferredChild := some left })) hi'.curLt
    refine ⟨⟨es, some left⟩, ?_, rfl⟩
    unfold goForward
    rw [hft]
    simp only [pickForward, hhead, hes]

/-! ### Paths to the root -/

/-- `a` is `c` or an ancestor of `c`. -/
inductive Path (es : List Entry) : Nat → Nat → Prop
  | refl (c : Nat) : Path es c c
  | up {c p a : Nat} {e : Entry} : es[c]? = some e → e.parent = some p → Path es p a → Path es c a

/-- Every ancestor of the current entry (and itself) is its predecessor's preferred child. -/
def PathPref (h : Hist) : Prop :=
  ∀ c a, h.current = some c → Path h.entries c a → PrefAt h.entries a

theorem path_le {h : Hist} (hi : Inv h) {c a : Nat} (hp : Path h.entries c a) : a ≤ c := by
  induction hp with
  | refl => exact Nat.le_refl _
  | up he hpar _ ih => have := hi.parLt _ _ _ he hpar; omega

/-- Paths depend on the predecessors only. -/
theorem path_congr {es es' : List Entry} (hg : ∀ (j : Nat) (e' : Entry), es'[j]? = some e' →
    ∀ p, e'.parent = some p → ∃ e : Entry, es[j]? = some e ∧ e.parent = some p) {c a : Nat}
    (hp : Path es' c a) : Path es c a := by
  induction hp with
  | refl => exact .refl _
  | up he hpar _ ih =>
    obtain ⟨e, h1, h2⟩ := hg _ _ he _ hpar
    exact .up h1 h2 ih

/-- Moving from `c` to its child `id`, making `id` the preferred child of `c`. -/
theorem pathPref_descend {es es' : List Entry} {c id : Nat} (hi : Inv ⟨es, some c⟩)
    (hpp : PathPref ⟨es, some c⟩)
    (hpar : ∀ (j : Nat) (e' : Entry), es'[j]? = some e' → j ≠ id →
      ∃ e : Entry, es[j]? = some e ∧ e'.parent = e.parent ∧ (j ≠ c → e'.preferredChild = e.preferredChild))
    (hid : ∃ e, es'[id]? = some e ∧ e.parent = some c) (hlt : c < id)
    (hpref : ∀ e, es'[c]? = some e → e.preferredChild = some id) : PathPref ⟨es', some id⟩ := by
  intro k a hk hp
  cases hk
  -- below `id` the two lists agree on predecessors
  have hlow : ∀ {x a : Nat}, Path es' x a → x < id → Path es x a := by
    intro x a hp
    induction hp with
    | refl => intro _; exact .refl _
    | up he hq _ ih =>
      intro hx
      obtain ⟨e, h1, h2, _⟩ := hpar _ _ he (by omega)
      rw [h2] at hq
      have := hi.parLt _ _ _ h1 hq
      exact .up h1 hq (ih (by omega))
  obtain ⟨eid, hid1, hid2⟩ := hid
  cases hp with
  | refl =>
    intro e p ep he hq hep
    rw [hid1] at he; cases he
    rw [hid2] at hq; cases hq
    exact hpref ep hep
  | up he hq hrest =>
    rw [hid1] at he; cases he
    rw [hid2] at hq; cases hq
    have hpa := hlow hrest hlt
    have hle := path_le hi hpa
    intro e p ep he hq hep
    obtain ⟨e0, h1, h2, _⟩ := hpar a e he (by omega)
    rw [h2] at hq
    have hpl := hi.parLt a e0 p h1 hq
    obtain ⟨ep0, h3, _, h4⟩ := hpar p ep hep (by omega)
    rw [h4 (by omega)]
    exact hpp c a rfl hpa e0 p ep0 h1 hq h3

/-- In-place changes that keep predecessors and preferred children keep `PathPref`. -/
theorem pathPref_same {es es' : List Entry} {c c' : Option Nat} (hpp : PathPref ⟨es, c⟩)
    (hg : ∀ (j : Nat) (e' : Entry), es'[j]? = some e' →
      ∃ e : Entry, es[j]? = some e ∧ e'.parent = e.parent ∧ e'.preferredChild = e.preferredChild)
    (hc : ∀ k, c' = some k → ∃ k0, c = some k0 ∧ Path es k0 k) : PathPref ⟨es', c'⟩ := by
  intro k a hk hp
  obtain ⟨k0, hk0, hup⟩ := hc k hk
  have hp' : Path es k a := path_congr (fun j e' he' p hp => by
    obtain ⟨e, h1, h2, _⟩ := hg j e' he'
    exact ⟨e, h1, by rw [← h2, hp]⟩) hp
  have htr : ∀ {x y z : Nat}, Path es x y → Path es y z → Path es x z := by
    intro x y z h1 h2
    induction h1 with
    | refl => exact h2
    | up he hq _ ih => exact .up he hq (ih h2)
  intro e p ep he hq hep
  obtain ⟨e0, h1, h2, _⟩ := hg a e he
  obtain ⟨ep0, h3, _, h4⟩ := hg p ep hep
  rw [h4]
  exact hpp k0 a hk0 (htr hup hp') e0 p ep0 h1 (by rw [← h2, hq]) h3

theorem pathPref_rewrite {h h' : Hist} {f : Entry → Entry} (hpp : PathPref h)
    (hm : (modifyCurrent h.entries h.current f).map (fun es => (⟨es, h.current⟩ : Hist)) = some h')
    (hf : ∀ e, (f e).parent = e.parent ∧ (f e).preferredChild = e.preferredChild) : PathPref h' := by
  cases hm' : modifyCurrent h.entries h.current f with
  | none => rw [hm'] at hm; simp at hm
  | some es =>
    rw [hm'] at hm; simp at hm; subst hm
    refine pathPref_same (es := h.entries) (c := h.current) hpp ?_ (fun k hk => ⟨k, hk, .refl _⟩)
    intro j e' he'
    rw [modifyCurrent_get hm'] at he'
    cases hj : h.entries[j]? with
    | none => rw [hj] at he'; simp at he'
    | some e =>
      rw [hj] at he'; simp at he'
      refine ⟨e, rfl, ?_⟩
      subst he'
      split
      · exact hf e
      · exact ⟨rfl, rfl⟩

theorem pathPref_step {h h' : Hist} {o : Op} (hi : Inv h) (hpp : PathPref h) (hno : o.isJump = false)
    (hs : step h o = some h') : PathPref h' := by
  cases o with
  | push u t =>
    obtain ⟨id, hb⟩ := map_fst_some hs
    obtain ⟨rfl, hcur, hlen, hnew, hold⟩ := push_spec hb hi.curLt
    obtain ⟨es', cur'⟩ := h'
    simp only at hcur hlen hnew hold
    subst hcur
    cases hc : h.current with
    | none =>
      -- the first entry has no predecessor
      intro k a hk hp
      cases hk
      have hent := hi.curNone hc
      rw [hent] at hp hnew hlen
      have h0 : a = 0 := by
        cases hp with
        | refl => rfl
        | up he hq _ => simp only [List.length_nil] at he; rw [show es'[0]? = _ from hnew] at he; cases he; rw [hc] at hq; cases hq
      subst h0
      intro e p ep he hq _
      rw [show es'[0]? = _ from hnew] at he; cases he; rw [hc] at hq; cases hq
    | some c =>
      have hclt := hi.curLt c hc
      have hi2 : Inv ⟨h.entries, some c⟩ := by rw [← hc]; exact hi
      refine pathPref_descend (es := h.entries) (c := c) hi2 (by rw [← hc]; exact hpp) ?_ ?_ hclt ?_
      · intro j e' he' hne
        have hjl := (List.getElem?_eq_some_iff.mp he').1
        have hj : j < h.entries.length := by omega
        rw [hold j hj, List.getElem?_eq_getElem hj] at he'
        simp at he'
        refine ⟨_, List.getElem?_eq_getElem hj, ?_⟩
        subst he'
        rw [hc]
        split
        · rename_i heq; cases heq; simp
        · simp
      · exact ⟨_, hnew, hc⟩
      · intro e he
        rw [hold c hclt, List.getElem?_eq_getElem hclt] at he
        simp [hc] at he
        rw [← he]
  | replaceUrl u => exact pathPref_rewrite hpp hs (by simp)
  | setTitle t => exact pathPref_rewrite hpp hs (by simp)
  | setScroll x y => exact pathPref_rewrite hpp hs (by simp)
  | goBack =>
    obtain ⟨b, hb⟩ := map_fst_some hs
    cases b with
    | none => rw [(goBack_spec hi hb).2.1 rfl]; exact hpp
    | some p =>
      cases hc : h.current with
      | none => simp [goBack, backTarget_eq hi, hc] at hb
      | some c =>
        obtain ⟨e, he⟩ := current_entry hi hc
        rw [goBack_eq hi hc he] at hb
        cases hp : e.parent with
        | none => rw [hp] at hb; simp at hb
        | some q =>
          rw [hp] at hb; simp at hb; obtain ⟨rfl, rfl⟩ := hb
          refine pathPref_same (es := h.entries) (c := h.current) hpp (fun j e he => ⟨e, he, rfl, rfl⟩) ?_
          intro k hk; cases hk
          exact ⟨c, hc, .up he hp (.refl _)⟩
  | goForward x =>
    obtain ⟨b, hb⟩ := map_fst_some hs
    obtain ⟨h1, h2⟩ := goForward_spec hi hb
    cases b with
    | none => rw [h1 rfl]; exact hpp
    | some k =>
      obtain ⟨c, e, es, hc, he, hp, hm, rfl⟩ := h2 k rfl
      have hi2 : Inv ⟨h.entries, some c⟩ := by rw [← hc]; exact hi
      have hg := modifyCurrent_get hm
      rw [hc] at hg
      have hlt := hi.parLt _ _ _ he hp
      refine pathPref_descend (es := h.entries) (c := c) hi2 (by rw [← hc]; exact hpp) ?_ ?_ hlt ?_
      · intro j e' he' hne
        rw [hg] at he'
        cases hj : h.entries[j]? with
        | none => rw [hj] at he'; simp at he'
        | some e0 =>
          rw [hj] at he'; simp at he'
          refine ⟨e0, rfl, ?_⟩
          subst he'
          split
          · rename_i heq; subst heq; simp
          · simp
      · refine ⟨_, by rw [hg, he]; rfl, ?_⟩
        split <;> exact hp
      · intro e' he'
        rw [hg] at he'
        cases hj : h.entries[c]? with
        | none => rw [hj] at he'; simp at he'
        | some e0 => rw [hj] at he'; simp at he'; rw [← he']
  | goTo i => simp [Op.isJump] at hno

theorem pathPref_run {h h' : Hist} {ops : List Op} (hi : Inv h) (hpp : PathPref h)
    (hno : ∀ o ∈ ops, o.isJump = false) (hr : run h ops = some h') : PathPref h' := by
  induction ops generalizing h with
  | nil => simp [run] at hr; subst hr; exact hpp
  | cons o ops ih =>
    simp only [run] at hr
    cases hs : step h o with
    | none => rw [hs] at hr; simp at hr
    | some h1 =>
      rw [hs] at hr
      exact ih (inv_step hi hs) (pathPref_step hi hpp (hno o (by simp)) hs)
        (fun o ho => hno o (by simp [ho])) hr

theorem prefAt_goForward {h h' : Hist} {x : Option Nat} {id : Nat} (hi : Inv h)
    (hf : goForward h x = some (h', some id)) : PrefAt h'.entries id ∧ h'.current = some id := by
  obtain ⟨c, e, es, hc, he, hp, hm, rfl⟩ := (goForward_spec hi hf).2 id rfl
  refine ⟨?_, rfl⟩
  have hg := modifyCurrent_get hm
  rw [hc] at hg
  have hlt := hi.parLt _ _ _ he hp
  intro e' p ep he' hq hep
  rw [hg, he] at he'; simp at he'
  have : p = c := by
    subst he'; split at hq <;> (rw [hp] at hq; cases hq; rfl)
  subst this
  rw [hg] at hep
  cases hj : h.entries[p]? with
  | none => rw [hj] at hep; simp at hep
  | some e0 => rw [hj] at hep; simp at hep; rw [← hep]

theorem prefAt_goTo {h h' : Hist} {i id : Nat} (hi : Inv h)
    (hf : goTo h i = some (h', some id)) : PrefAt h'.entries id ∧ h'.current = some id := by
  obtain ⟨rfl, e, es, he, hm, rfl⟩ := (goTo_spec hi hf).2 id rfl
  refine ⟨?_, rfl⟩
  have hg := modifyCurrent_get hm
  intro e' p ep he' hq hep
  rw [hg, he] at he'; simp at he'
  have hpe : e.parent = some p := by
    subst he'; split at hq <;> exact hq
  rw [hg, hpe] at hep
  cases hj : h.entries[p]? with
  | none => rw [hj] at hep; simp at hep
  | some e0 => rw [hj] at hep; simp at hep; rw [← hep]

theorem prefAt_push {h h' : Hist} {u : Str} {t : Option Str} {id : Nat} (hi : Inv h)
    (hf : push h u t = some (h', id)) : PrefAt h'.entries id ∧ h'.current = some id := by
  obtain ⟨rfl, hcur, hlen, hnew, hold⟩ := push_spec hf hi.curLt
  refine ⟨?_, hcur⟩
  intro e p ep he hq hep
  rw [hnew] at he; cases he
  simp only at hq
  have hlt := hi.curLt p hq
  rw [hold p hlt, List.getElem?_eq_getElem hlt] at hep
  simp [hq] at hep
  rw [← hep]

/-! ### Going back to the start -/

theorem backs_to_root {h : Hist} (hi : Inv h) : ∀ (c : Nat), h.current = some c →
    ∃ n h', n ≤ c ∧ backs h n = some h' ∧ h'.current = some 0 ∧ h'.entries = h.entries := by
  intro c
  induction c using Nat.strongRecOn generalizing h with
  | _ c ih =>
    intro hc
    obtain ⟨e, he⟩ := current_entry hi hc
    cases hp : e.parent with
    | none =>
      have := (hi.parNone c e he).mp hp
      subst this
      exact ⟨0, h, Nat.le_refl _, rfl, hc, rfl⟩
    | some p =>
      have hlt := hi.parLt c e p he hp
      have hb : goBack h = some (⟨h.entries, some p⟩, some p) := by rw [goBack_eq hi hc he, hp]
      obtain ⟨n, h', h1, h2, h3, h4⟩ := ih p hlt (inv_goBack hi hb) rfl
      exact ⟨n + 1, h', by omega, by simp [backs, hb, h2], h3, h4⟩

theorem summaries_eq {es : List Entry} (l : List Nat) (hl : ∀ i ∈ l, i < es.length) :
    ∃ r, summaries es l = some r ∧ r.length = l.length ∧
      ∀ (k i : Nat), l[k]? = some i → ∃ e, es[i]? = some e ∧ r[k]? = some ⟨i, e.url, e.title, e.parent⟩ := by
  induction l with
  | nil => exact ⟨[], rfl, rfl, by simp⟩
  | cons a l ih =>
    obtain ⟨r, h1, h2, h3⟩ := ih (fun i hi => hl i (by simp [hi]))
    have ha := hl a (by simp)
    refine ⟨⟨a, es[a].url, es[a].title, es[a].parent⟩ :: r, ?_, by simp [h2], ?_⟩
    · simp [summaries, summary, List.getElem?_eq_getElem ha, h1]
    · intro k i hk
      cases k with
      | zero => simp at hk; subst hk; exact ⟨_, List.getElem?_eq_getElem ha, rfl⟩
      | succ k => simp at hk; simpa using h3 k i hk

theorem run_length {h h' : Hist} {ops : List Op} (hi : Inv h) (hr : run h ops = some h') :
    h'.entries.length = h.entries.length + (ops.map Op.visits).sum := by
  induction ops generalizing h with
  | nil => simp [run] at hr; subst hr; simp
  | cons o ops ih =>
    simp only [run] at hr
    cases hs : step h o with
    | none => rw [hs] at hr; simp at hr
    | some h1 =>
      rw [hs] at hr
      rw [ih (inv_step hi hs) hr, step_length hi hs]
      simp; omega

end Verif.History
