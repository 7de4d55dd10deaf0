import Verif.EventLoop.Spec

/-! # C141: events reach their listeners -/
namespace Verif.EventLoop

theorem add_handle (t : Listeners) (l : Listener) (e : Input) :
    (∃ x, Hears l e x ∧ (t.add l).handle e = t.handle e ++ [x]) ∨
    ((∀ x, ¬ Hears l e x) ∧ (t.add l).handle e = t.handle e) := by
  cases l <;> cases e <;>
    first
    | exact .inl ⟨_, by constructor, by simp [Listeners.add, Listeners.handle, handleEvent]⟩
    | exact .inr ⟨fun x h => (by cases h), rfl⟩

theorem heard_snoc {e : Input} {h : List Item} {r : List (Nat × Data)} (hh : Heard e h r) {i : Item} {r' : List (Nat × Data)}
    (hi : Heard e [i] r') : Heard e (h ++ [i]) (r ++ r') := by
  induction hh with
  | nil => exact hi
  | hears h1 _ ih => exact .hears h1 ih
  | deaf h1 _ ih => exact .deaf h1 ih
  | msg _ ih => exact .msg ih

/-- what holds of the loop in every schedule -/
structure Inv (s : St) : Prop where
  msgs : s.accepted = msgs s.handled ++ s.queue
  wishes : s.asked = added s.handled ++ s.wishes
  heard : ∀ e, Heard e s.handled (s.listeners.handle e)
  calls : Calls s.handled s.calls
  closed : s.closed = true ↔ Msg.close ∈ EventLoop.msgs s.handled
  ended : s.ended = true → s.queue = [] ∧ (s.closed = true ∨ s.dropped = true)

theorem inv_step {s : St} (h : Inv s) (e : Step) : Inv (s.step e) := by
  obtain ⟨h1, h2, h3, h4, h5, h6⟩ := h
  cases e with
  | send m =>
    unfold St.step
    simp only
    split
    · exact ⟨h1, h2, h3, h4, h5, h6⟩
    · next hc =>
      refine ⟨?_, h2, h3, h4, h5, ?_⟩
      · show s.accepted ++ [m] = _
        rw [h1, List.append_assoc]
      · intro he
        exact absurd (by simp [show s.ended = true from he]) hc
  | listen l =>
    unfold St.step
    simp only
    split
    · exact ⟨h1, h2, h3, h4, h5, h6⟩
    · refine ⟨h1, ?_, h3, h4, h5, h6⟩
      show s.asked ++ [l] = _
      rw [h2, List.append_assoc]
  | drop => exact ⟨h1, h2, h3, h4, h5, fun he => ⟨(h6 he).1, .inr rfl⟩⟩
  | recv =>
    unfold St.step
    simp only
    split
    · exact ⟨h1, h2, h3, h4, h5, h6⟩
    · next hne =>
      split
      · next m r hq =>
        unfold St.handle
        cases m with
        | input i =>
          refine ⟨?_, ?_, ?_, ?_, ?_, ?_⟩
          · show s.accepted = EventLoop.msgs (s.handled ++ [.msg (.input i)]) ++ r
            rw [h1, hq]; simp [EventLoop.msgs]
          · show s.asked = added (s.handled ++ [.msg (.input i)]) ++ s.wishes
            rw [h2]; simp [added]
          · intro e
            have := heard_snoc (h3 e) (i := .msg (.input i)) (.msg .nil)
            rwa [List.append_nil] at this
          · exact .input h4 (h3 i)
          · show s.closed = true ↔ Msg.close ∈ EventLoop.msgs (s.handled ++ [.msg (.input i)])
            rw [h5]; simp [EventLoop.msgs]
          · intro he; exact absurd he hne
        | close =>
          refine ⟨?_, ?_, ?_, .close h4, ?_, ?_⟩
          · show s.accepted = EventLoop.msgs (s.handled ++ [.msg .close]) ++ r
            rw [h1, hq]; simp [EventLoop.msgs]
          · show s.asked = added (s.handled ++ [.msg .close]) ++ s.wishes
            rw [h2]; simp [added]
          · intro e
            have := heard_snoc (h3 e) (i := .msg .close) (.msg .nil)
            rwa [List.append_nil] at this
          · show true = true ↔ Msg.close ∈ EventLoop.msgs (s.handled ++ [.msg .close])
            simp [EventLoop.msgs]
          · intro he; exact absurd he hne
      · next hq =>
        split
        · next hc =>
          refine ⟨h1, h2, h3, h4, h5, fun _ => ⟨hq, ?_⟩⟩
          simpa using hc
        · exact ⟨h1, h2, h3, h4, h5, h6⟩
  | recvLocal =>
    unfold St.step
    simp only
    split
    · exact ⟨h1, h2, h3, h4, h5, h6⟩
    · split
      · next l r hq =>
        refine ⟨?_, ?_, ?_, .listener l h4, ?_, h6⟩
        · show s.accepted = EventLoop.msgs (s.handled ++ [.listener l]) ++ s.queue
          rw [h1]; simp [EventLoop.msgs]
        · show s.asked = added (s.handled ++ [.listener l]) ++ r
          rw [h2, hq]; simp [added]
        · intro e
          show Heard e (s.handled ++ [.listener l]) ((s.listeners.add l).handle e)
          rcases add_handle s.listeners l e with ⟨x, hx, hr⟩ | ⟨hx, hr⟩
          · rw [hr]; exact heard_snoc (h3 e) (.hears hx .nil)
          · rw [hr]
            have := heard_snoc (h3 e) (i := .listener l) (.deaf hx .nil)
            rwa [List.append_nil] at this
        · show s.closed = true ↔ Msg.close ∈ EventLoop.msgs (s.handled ++ [.listener l])
          rw [h5]; simp [EventLoop.msgs]
      · exact ⟨h1, h2, h3, h4, h5, h6⟩

theorem inv_run {s : St} (h : Inv s) (l : List Step) : Inv (s.run l) := by
  induction l generalizing s with
  | nil => exact h
  | cons e l ih => exact ih (inv_step h e)

theorem inv_new : Inv {} :=
  ⟨rfl, rfl, fun e => by cases e <;> exact .nil, .nil, by simp [EventLoop.msgs], fun h => by (cases h)⟩

/-- **C141** In every schedule the loop handles the messages it has accepted in the order of sending, and the wishes for
listeners in their order, each once; each event calls, once and with what it carries, exactly the callbacks of the
listeners for it that were added before, in the order of adding; and when the loop has ended, no accepted message is
left. -/
theorem C141_delivered (l : List Step) :
    Calls (St.run {} l).handled (St.run {} l).calls ∧
    (St.run {} l).accepted = msgs (St.run {} l).handled ++ (St.run {} l).queue ∧
    (St.run {} l).asked = added (St.run {} l).handled ++ (St.run {} l).wishes ∧
    ((St.run {} l).ended = true → (St.run {} l).accepted = msgs (St.run {} l).handled) := by
  have h := inv_run inv_new l
  refine ⟨h.calls, h.msgs, h.wishes, fun he => ?_⟩
  rw [h.msgs, (h.ended he).1, List.append_nil]

/-- the calls are determined by what was handled -/
theorem C141_one {h : List Item} {c c' : List (Nat × Data)} (hc : Calls h c) (hc' : Calls h c') : c = c' := by
  have hears_one : ∀ {l e x y}, Hears l e x → Hears l e y → x = y := by
    intro l e x y h1 h2; cases h1 <;> cases h2 <;> rfl
  have heard_one : ∀ {e h r r'}, Heard e h r → Heard e h r' → r = r' := by
    intro e h r r' h1
    induction h1 generalizing r' with
    | nil => intro h2; cases h2; rfl
    | hears hx _ ih =>
      intro h2
      cases h2 with
      | hears hy h2 => rw [hears_one hx hy, ih h2]
      | deaf hn _ => exact absurd hx (hn _)
    | deaf hn _ ih =>
      intro h2
      cases h2 with
      | hears hy _ => exact absurd hy (hn _)
      | deaf _ h2 => exact ih h2
    | msg _ ih =>
      intro h2
      cases h2 with
      | msg h2 => exact ih h2
  induction hc generalizing c' with
  | nil =>
    generalize hg : ([] : List Item) = g at hc'
    cases hc' <;> simp at hg ⊢
  | @listener h c l _ ih =>
    generalize hg : h ++ [Item.listener l] = g at hc'
    cases hc' with
    | nil => simp at hg
    | listener l' h2 => obtain ⟨rfl, _⟩ := List.append_inj' hg rfl; exact ih h2
    | close _ => have := (List.append_inj' hg rfl).2; simp at this
    | input _ _ => have := (List.append_inj' hg rfl).2; simp at this
  | @close h c _ ih =>
    generalize hg : h ++ [Item.msg .close] = g at hc'
    cases hc' with
    | nil => simp at hg
    | listener l' h2 => have := (List.append_inj' hg rfl).2; simp at this
    | close h2 => obtain ⟨rfl, _⟩ := List.append_inj' hg rfl; exact ih h2
    | input _ _ => have := (List.append_inj' hg rfl).2; simp at this
  | @input h c e r _ hh ih =>
    generalize hg : h ++ [Item.msg (.input e)] = g at hc'
    cases hc' with
    | nil => simp at hg
    | listener l' h2 => have := (List.append_inj' hg rfl).2; simp at this
    | close h2 => have := (List.append_inj' hg rfl).2; simp at this
    | input h2 hh2 =>
      obtain ⟨rfl, h3⟩ := List.append_inj' hg rfl
      simp only [List.cons.injEq, Item.msg.injEq, Msg.input.injEq, and_true] at h3
      subst h3
      rw [ih h2, heard_one hh hh2]

theorem closing_step {s : St} (h : s.closed = true ∨ s.dropped = true) (e : Step) :
    ((s.step e).closed = true ∨ (s.step e).dropped = true) ∧ (s.step e).accepted = s.accepted ∧
    (s.ended = true → (s.step e).ended = true) ∧
    ((s.step e).ended = true ∨ (s.step e).queue.length + (if e = .recv then 1 else 0) ≤ s.queue.length) := by
  have hor : (s.closed || s.dropped) = true := by simpa using h
  cases e with
  | send m =>
    have : s.step (.send m) = s := by
      unfold St.step
      simp only
      rw [if_pos (by rw [hor]; simp)]
    rw [this]; exact ⟨h, rfl, id, .inr (by simp)⟩
  | listen l =>
    unfold St.step
    simp only
    split
    · exact ⟨h, rfl, id, .inr (by simp)⟩
    · exact ⟨h, rfl, id, .inr (by simp)⟩
  | drop => exact ⟨.inr rfl, rfl, id, .inr (by simp [St.step])⟩
  | recv =>
    unfold St.step
    simp only
    split
    · next he => exact ⟨h, rfl, id, .inl he⟩
    · next he =>
      split
      · next m r hq =>
        unfold St.handle
        cases m with
        | input i => exact ⟨h, rfl, fun x => x, .inr (by simp [hq])⟩
        | close => exact ⟨.inl rfl, rfl, fun x => x, .inr (by simp [hq])⟩
      · exact ⟨h, rfl, fun _ => rfl, .inl rfl⟩
  | recvLocal =>
    unfold St.step
    simp only
    split
    · exact ⟨h, rfl, id, .inr (by simp)⟩
    · split
      · exact ⟨h, rfl, id, .inr (by simp)⟩
      · exact ⟨h, rfl, id, .inr (by simp)⟩

theorem ended_stays {s : St} (h : s.closed = true ∨ s.dropped = true) (he : s.ended = true) (l : List Step) :
    (s.run l).ended = true ∧ (s.run l).accepted = s.accepted := by
  induction l generalizing s with
  | nil => exact ⟨he, rfl⟩
  | cons e l ih =>
    have h1 := closing_step h e
    obtain ⟨h2, h3⟩ := ih h1.1 (h1.2.2.1 he)
    exact ⟨h2, by rw [← h1.2.1]; exact h3⟩

/-- **C141** Once a request to close was handled, or all senders are gone, no more messages are accepted, and the loop
ends after it has turned to the channel once more for each message left, whatever else happens in between. -/
theorem C141_ends (l l' : List Step) (hc : Msg.close ∈ msgs (St.run {} l).handled ∨ (St.run {} l).dropped = true) :
    (St.run {} (l ++ l')).accepted = (St.run {} l).accepted ∧
    ((St.run {} l).queue.length < l'.count .recv →
      (St.run {} (l ++ l')).ended = true ∧ msgs (St.run {} (l ++ l')).handled = (St.run {} l).accepted) := by
  have hi := inv_run inv_new l
  have hi' := inv_run inv_new (l ++ l')
  have hrun : St.run {} (l ++ l') = St.run (St.run {} l) l' := List.foldl_append ..
  rw [hrun] at hi' ⊢
  have hcl : (St.run {} l).closed = true ∨ (St.run {} l).dropped = true := by
    rcases hc with h | h
    · exact .inl (hi.closed.2 h)
    · exact .inr h
  clear hc hi hrun
  generalize St.run {} l = s at hcl hi'
  have key : ∀ (l' : List Step) (s : St), (s.closed = true ∨ s.dropped = true) → (s.run l').accepted = s.accepted ∧
      (s.queue.length < l'.count .recv → (s.run l').ended = true) := by
    intro l'
    induction l' with
    | nil => intro s _; exact ⟨rfl, fun h => by simp at h⟩
    | cons e l' ih =>
      intro s hs
      obtain ⟨h1, h2, h3, h4⟩ := closing_step hs e
      obtain ⟨h5, h6⟩ := ih (s.step e) h1
      refine ⟨by rw [← h2]; exact h5, fun hlt => ?_⟩
      rcases h4 with h4 | h4
      · exact (ended_stays h1 h4 l').1
      · apply h6
        by_cases he : e = .recv
        · subst he
          rw [List.count_cons_self] at hlt
          rw [if_pos rfl] at h4
          omega
        · rw [List.count_cons_of_ne he] at hlt
          rw [if_neg he] at h4
          omega
  obtain ⟨h1, h2⟩ := key l' s hcl
  refine ⟨h1, fun hlt => ⟨h2 hlt, ?_⟩⟩
  rw [← h1, hi'.msgs, (hi'.ended (h2 hlt)).1, List.append_nil]

/-- two listeners, one of them added too late for the first click; a request to close with an event behind it -/
def sample : List Step :=
  [.listen (.mouseDown 1), .send (.input (.mouseDown .left)), .recvLocal, .recv, .listen (.mouseDown 2), .recvLocal,
   .send (.input (.mouseDown .right)), .send .close, .send (.input (.keyboardUp 'a')), .recv, .recv]

example : (St.run {} sample).calls = [(1, .button .left), (1, .button .right), (2, .button .right)] ∧
    Msg.close ∈ msgs (St.run {} sample).handled ∧ (St.run {} sample).queue.length < [Step.recv, .recv].count .recv ∧
    (St.run {} (sample ++ [.send .close, .recv, .recv])).ended = true := by decide +kernel

end Verif.EventLoop
