import Verif.Media.Inv

/-! # C136, C137: images are fetched once, and the page hears of them -/

namespace Verif.Media

/-- **C136** However requests and fetches of any number of threads are interleaved, and also if a fetch
fails, a source is fetched at most once. -/
theorem C136_once (k : Key) (acts : List Act) (hk : Source k acts) : fetches k (after acts).log ≤ 1 :=
  (inv_after k acts hk).once

/-- **C136** All requests for a source that are answered with an id are answered with the same id, and
under it is the picture that was fetched from this source; it is the placeholder if the fetch has
failed. -/
theorem C136_ready (k : Key) (acts : List Act) (hk : Source k acts) (id : Nat)
    (h : .answered k (some id) ∈ (after acts).log) :
    (∀ id', .answered k (some id') ∈ (after acts).log → id' = id) ∧
    ((id = placeholder ∧ .fetched k none ∈ (after acts).log) ∨
      (id ≠ placeholder ∧ ∃ p, (after acts).entries id = some (k, p) ∧ .fetched k (some p) ∈ (after acts).log)) := by
  have hi := inv_after k acts hk
  have hc := hi.said id h
  refine ⟨fun id' h' => ?_, ?_⟩
  · have := hi.said id' h'
    rw [hc] at this
    exact (Option.some.inj this).symm
  · rcases hi.cached id hc with h1 | ⟨h1, h2⟩
    · exact .inl h1
    · refine .inr ⟨?_, h2⟩
      unfold placeholder; omega

/-- **C136** Different sources have different ids, except for the placeholder. -/
theorem C136_distinct (k k' : Key) (acts : List Act) (hk : Source k acts) (hk' : Source k' acts) (id : Nat)
    (h : .answered k (some id) ∈ (after acts).log) (h' : .answered k' (some id) ∈ (after acts).log)
    (hid : id ≠ placeholder) : k = k' := by
  rcases (C136_ready k acts hk id h).2 with h1 | ⟨_, p, h1, _⟩
  · exact absurd h1.1 hid
  · rcases (C136_ready k' acts hk' id h').2 with h2 | ⟨_, p', h2, _⟩
    · exact absurd h2.1 hid
    · rw [h1] at h2
      exact (Prod.mk.inj (Option.some.inj h2)).1

/-- **C137** A request that finds nothing is followed by news: once no thread is at work for the source
any more, the flag is up with the source in the cache, or the engine has seen the flag after the request,
when the source was in the cache. So no picture arrives without the page being laid out again.

Missing: threads that cannot be started (`C137_spawn_violated`). -/
theorem C137_told_partial (k : Key) (acts : List Act) (hk : Source k acts) (hok : .noThread k ∉ (after acts).log)
    (hquiet : ∀ pc ∈ (after acts).threads, busy k pc = false) (a b : List Event)
    (hlog : (after acts).log = a ++ .missed k :: b) : Told k (after acts) (a ++ [.missed k]) b := by
  rcases wake_after k acts hk a b hlog with ⟨pc, hpc, hb⟩ | h | h
  · rw [hquiet pc hpc] at hb; cases hb
  · exact absurd h hok
  · exact h

theorem stored_there (k : Key) (acts : List Act) (hk : Source k acts) (h : .stored k ∈ (after acts).log) :
    (after acts).cache k ≠ none := by
  induction acts using List.reverseRecOn with
  | nil => cases h
  | append_singleton acts x ih =>
    have hk1 : Source k acts := fun p hp => hk p (by simp [hp])
    have ih := ih hk1
    have hinv := inv_after k acts hk1
    rw [after_snoc] at h ⊢
    generalize after acts = s at *
    cases x with
    | request k' => exact ih h
    | other k' p => exact ih h
    | take =>
      refine ih ?_
      have h : Event.stored k ∈ s.log ++ [.taken s.completed] := h
      simpa using h
    | run i r ok =>
      simp only [St.step] at h ⊢
      cases hi : s.threads[i]? with
      | none => rw [hi] at h; exact ih h
      | some pc =>
        rw [hi] at h
        simp only at h ⊢
        have hgood := hinv.good pc (List.mem_of_getElem? hi)
        have same : ∀ s' : St, Event.stored k ∈ s'.log → s'.log = s.log ∨ (∃ e, e ≠ .stored k ∧ s'.log = s.log ++ [e]) →
            s'.cache k = s.cache k → s'.cache k ≠ none := by
          intro s' h1 h2 h3
          rw [h3]
          refine ih ?_
          rcases h2 with h2 | ⟨e, he, h2⟩
          · rw [← h2]; exact h1
          · rw [h2, List.mem_append, List.mem_singleton] at h1
            rcases h1 with h1 | h1
            · exact h1
            · exact absurd h1.symm he
        have ins : ∀ k' id, Event.stored k ∈ s.log ++ [.stored k'] → orInsert s.cache k' id k ≠ none := by
          intro k' id h1
          by_cases e : k' = k
          · subst e
            unfold orInsert
            rw [if_pos rfl]; simp
          · rw [orInsert_ne _ e]
            refine ih ?_
            simpa [Ne.symm e] using h1
        cases pc with
        | req k' =>
          simp only [St.move] at h ⊢
          split at h <;> exact same _ h (.inr ⟨_, by simp, rfl⟩) rfl
        | miss k' =>
          simp only [St.move] at h ⊢
          split at h
          · rename_i hp
            rw [if_pos hp]; exact same _ h (.inr ⟨_, by simp, rfl⟩) rfl
          · rename_i hp
            rw [if_neg hp]; exact same _ h (.inl rfl) rfl
        | own k' =>
          cases ok
          · exact same _ h (.inr ⟨.noThread k', by simp, rfl⟩) rfl
          · exact same _ h (.inr ⟨.answered k' none, by simp, rfl⟩) rfl
        | noSpawn k' => exact same _ h (.inr ⟨.answered k' none, by simp, rfl⟩) rfl
        | load k' =>
          simp only [St.move] at h ⊢
          split at h <;> exact same _ h (.inl rfl) rfl
        | fetch k' =>
          cases r with
          | none => exact same _ h (.inr ⟨.fetched k' none, by simp, rfl⟩) rfl
          | some p => exact same _ h (.inr ⟨.fetched k' (some p), by simp, rfl⟩) rfl
        | failed k' => exact ins k' _ h
        | alloc k' p => exact same _ h (.inl rfl) rfl
        | entry k' id p => exact same _ h (.inl rfl) rfl
        | store k' id => exact ins k' _ h
        | drop k' => exact same _ h (.inl rfl) rfl
        | signal k' => exact same _ h (.inl rfl) rfl
        | other k' p =>
          simp only [St.move] at h ⊢
          split at h
          · exact same _ h (.inr ⟨_, by simp, rfl⟩) rfl
          · exact same _ h (.inl rfl) rfl
        | otherAlloc k' p => exact same _ h (.inl rfl) rfl
        | otherEntry k' id p => exact same _ h (.inl rfl) rfl
        | otherStore k' id => exact same _ h (.inr ⟨.gave k' id, by simp, rfl⟩) (put_ne _ hgood _)
        | done => exact ih h

/-- **C137** Once a source has been put into the cache, every request for it is answered at once with an
id, whatever else goes on. -/
theorem C137_there (k : Key) (acts : List Act) (hk : Source k acts) (h : .stored k ∈ (after acts).log)
    (r : Option Nat) (ok : Bool) :
    ∃ id, (after (acts ++ [.request k, .run (after acts).threads.length r ok])).log =
      (after acts).log ++ [.answered k (some id)] := by
  have hc := stored_there k acts hk h
  cases hid : (after acts).cache k with
  | none => exact absurd hid hc
  | some id =>
    refine ⟨id, ?_⟩
    rw [show acts ++ [Act.request k, .run (after acts).threads.length r ok] =
      (acts ++ [.request k]) ++ [.run (after acts).threads.length r ok] by simp, after_snoc, after_snoc]
    have h1 : (((after acts).step (.request k)).threads)[(after acts).threads.length]? = some (.req k) := by
      show ((after acts).threads ++ [Pc.req k])[_]? = _
      simp
    have h2 : ((after acts).step (.request k)).cache k = some id := hid
    rw [show ∀ s : St, ∀ n, s.threads[n]? = some (.req k) → s.step (.run n r ok) = s.move n r ok (.req k) from
      fun s n hn => by simp only [St.step, hn]] <;> try exact h1
    simp only [St.move, h2]
    rfl

/-- A request, its fetch with the result `r`, and all else that belongs to it, by the threads `i` and
`i + 1`. -/
def whole (k : Key) (i : Nat) (r : Option Nat) : List Act :=
  [.request k, .run i none true, .run i none true, .run i none true] ++ List.replicate 7 (.run (i + 1) r true)

/-- **C137 is violated** if a thread cannot be started: the request is answered with `Pending`, but nobody
is at work, the flag stays down, and the page is not laid out again. -/
theorem C137_spawn_violated : ∃ acts,
    (after acts).log = [.missed "a".toList, .noThread "a".toList, .answered "a".toList none] ∧
    (∀ pc ∈ (after acts).threads, busy "a".toList pc = false) ∧ (after acts).completed = false ∧
    (after acts).cache "a".toList = none :=
  ⟨[.request "a".toList, .run 0 none true, .run 0 none true, .run 0 none false, .run 0 none true],
    by decide +kernel, by decide +kernel, by decide +kernel, by decide +kernel⟩

/-- **C136 is violated** for sizes of SVGs: they share the cache with sources, so a page whose image has
the source `svg-tile:100:16x16` (a valid URL that cannot be fetched) makes the placeholder the picture of
the SVG 100 in that size. -/
theorem C136_tile_violated :
    .gave "svg-tile:100:16x16".toList placeholder ∈
      (after (whole "svg-tile:100:16x16".toList 0 none ++
        [.other "svg-tile:100:16x16".toList ("gosub://svg-tile".toList, 7), .run 2 none true])).log := by
  decide +kernel

/-- Two requests for one source whose steps are interleaved, a failed fetch and an inline image meet the
hypotheses. -/
def demo : List Act :=
  [.request "a".toList, .run 0 none true, .request "a".toList, .run 1 none true, .run 0 none true,
   .run 1 none true, .run 0 none true] ++ List.replicate 7 (.run 2 (some 5) true) ++ [.take] ++
  whole "b".toList 3 none ++ [.other "<svg/>".toList ("gosub://data".toList, 9), .request "a".toList, .run 6 none true,
    .request "b".toList, .run 7 none true]

example : Source "a".toList demo ∧ Source "b".toList demo ∧ .noThread "a".toList ∉ (after demo).log ∧
    (∀ pc ∈ (after demo).threads, busy "a".toList pc = false) ∧
    (after demo).log = [.missed "a".toList, .missed "a".toList, .answered "a".toList none, .answered "a".toList none,
      .fetched "a".toList (some 5), .stored "a".toList, .taken true,
      .missed "b".toList, .answered "b".toList none, .fetched "b".toList none, .stored "b".toList,
      .answered "a".toList (some 100), .answered "b".toList (some placeholder)] := by
  refine ⟨?_, ?_, by decide +kernel, by decide +kernel, by decide +kernel⟩ <;>
  · intro p hp
    simp [demo, whole] at hp

end Verif.Media
