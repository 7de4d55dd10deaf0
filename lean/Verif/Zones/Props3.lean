import Verif.Zones.Props2

/-! # C120 and C122: the I/O thread, and the reports of storage changes -/

namespace Verif.Zones

/-! ## C120 -/

theorem list_snoc_induction {α : Type} {P : List α → Prop} (hnil : P [])
    (hsnoc : ∀ xs x, P xs → P (xs ++ [x])) : ∀ xs, P xs := by
  intro xs
  induction h : xs.length generalizing xs with
  | zero =>
    have : xs = [] := List.length_eq_zero_iff.1 h
    rw [this]; exact hnil
  | succ n ih =>
    have hne : xs ≠ [] := by intro hc; rw [hc] at h; simp at h
    rw [← List.dropLast_concat_getLast hne]
    exact hsnoc _ _ (ih _ (by simp [h]))

/-- What is true of a log at every moment up to now. -/
structure Sane (log : List IoEvent) (cmds : List IoCmd) : Prop where
  right : ∀ pre q f post, log = pre ++ .submitted q f :: post →
    ∃ z b, .fetch z q b ∈ cmds ∧ RunningFor pre f z
  single : ∀ pre post, log = pre ++ post → ∀ f f' z,
    RunningFor pre f z → RunningFor pre f' z → f = f'

theorem split_snoc {α : Type} {xs pre post : List α} {x y : α}
    (h : xs ++ [x] = pre ++ y :: post) :
    (∃ post', xs = pre ++ y :: post') ∨ (xs = pre ∧ x = y ∧ post = []) := by
  rcases List.eq_nil_or_concat post with rfl | ⟨post', w, rfl⟩
  · obtain ⟨h1, h2⟩ := List.append_inj' h rfl
    exact Or.inr ⟨h1, by simpa using h2, rfl⟩
  · have h' : xs ++ [x] = (pre ++ y :: post') ++ [w] := by simpa using h
    exact Or.inl ⟨post', (List.append_inj' h' rfl).1⟩

theorem sane_mono {log : List IoEvent} {cmds cmds' : List IoCmd} (h : Sane log cmds)
    (hs : ∀ c ∈ cmds, c ∈ cmds') : Sane log cmds' :=
  ⟨fun pre q f post he => by
    obtain ⟨z, b, hm, hr⟩ := h.right pre q f post he
    exact ⟨z, b, hs _ hm, hr⟩, h.single⟩

theorem sane_snoc {log : List IoEvent} {cmds : List IoCmd} {x : IoEvent} (h : Sane log cmds)
    (hsub : ∀ q f, x = .submitted q f → ∃ z b, .fetch z q b ∈ cmds ∧ RunningFor log f z)
    (hspawn : ∀ f z, x = .spawned f z → ∀ f', ¬ RunningFor log f' z) :
    Sane (log ++ [x]) cmds := by
  refine ⟨?_, ?_⟩
  · intro pre q f post he
    rcases split_snoc he with ⟨post', h'⟩ | ⟨rfl, hx, _⟩
    · exact h.right pre q f post' h'
    · exact hsub q f hx
  · intro pre post he f f' z h1 h2
    rcases List.eq_nil_or_concat post with rfl | ⟨post', w, rfl⟩
    · have he' : pre = log ++ [x] := by simpa using he.symm
      subst he'
      have hback : ∀ f, RunningFor (log ++ [x]) f z → RunningFor log f z ∨ x = .spawned f z := by
        intro f ⟨k1, k2⟩
        have k2' : IoEvent.stopped f ∉ log := fun hc => k2 (by simp [hc])
        rcases List.mem_append.1 k1 with k | k
        · exact Or.inl ⟨k, k2'⟩
        · exact Or.inr (List.mem_singleton.1 k).symm
      rcases hback f h1 with k1 | k1
      · rcases hback f' h2 with k2 | k2
        · exact h.single log [] (by simp) f f' z k1 k2
        · exact absurd k1 (hspawn f' z k2 f)
      · rcases hback f' h2 with k2 | k2
        · exact absurd k2 (hspawn f z k1 f')
        · rw [k1] at k2; simpa using k2
    · have h' : log ++ [x] = (pre ++ post') ++ [w] := by simpa using he
      exact h.single pre post' (List.append_inj' h' rfl).1 f f' z h1 h2

/-- The router while it takes commands. -/
structure RouterInv (r : Router) (cmds : List IoCmd) : Prop where
  map : ∀ z f, look r.zones z = some f ↔ RunningFor r.log f z
  small : ∀ f z, .spawned f z ∈ r.log → f < r.next
  stopped : ∀ f, .stopped f ∈ r.log → f < r.next
  unique : ∀ f z z', .spawned f z ∈ r.log → .spawned f z' ∈ r.log → z = z'
  sane : Sane r.log cmds
  disposed : r.log.filterMap disposedOf = cmds.filterMap requestOf

/-- An event that starts and stops nothing changes nothing of what runs. -/
theorem runningFor_snoc_other {log : List IoEvent} {x : IoEvent} (h1 : ∀ f z, x ≠ .spawned f z)
    (h2 : ∀ f, x ≠ .stopped f) (f z : Nat) : RunningFor (log ++ [x]) f z ↔ RunningFor log f z := by
  unfold RunningFor
  simp only [List.mem_append, List.mem_singleton]
  constructor
  · rintro ⟨k1, k2⟩
    refine ⟨?_, fun hc => k2 (Or.inl hc)⟩
    rcases k1 with k | k
    · exact k
    · exact absurd k.symm (h1 f z)
  · rintro ⟨k1, k2⟩
    refine ⟨Or.inl k1, ?_⟩
    rintro (k | k)
    · exact k2 k
    · exact absurd k.symm (h2 f)

theorem routerInv_log {r : Router} {cmds cmds' : List IoCmd} {x : IoEvent} (h : RouterInv r cmds)
    (hc : ∀ c ∈ cmds, c ∈ cmds')
    (h1 : ∀ f z, x ≠ .spawned f z) (h2 : ∀ f, x ≠ .stopped f)
    (hsub : ∀ q f, x = .submitted q f → ∃ z b, .fetch z q b ∈ cmds' ∧ RunningFor r.log f z)
    (hd : (r.log ++ [x]).filterMap disposedOf = cmds'.filterMap requestOf) :
    RouterInv { r with log := r.log ++ [x] } cmds' := by
  refine ⟨?_, ?_, ?_, ?_, ?_, hd⟩
  · intro z f
    rw [h.map, runningFor_snoc_other h1 h2]
  · intro f z hm
    rcases List.mem_append.1 hm with hm | hm
    · exact h.small f z hm
    · exact absurd (List.mem_singleton.1 hm).symm (h1 f z)
  · intro f hm
    rcases List.mem_append.1 hm with hm | hm
    · exact h.stopped f hm
    · exact absurd (List.mem_singleton.1 hm).symm (h2 f)
  · intro f z z' hm hm'
    rcases List.mem_append.1 hm with hm | hm
    · rcases List.mem_append.1 hm' with hm' | hm'
      · exact h.unique f z z' hm hm'
      · exact absurd (List.mem_singleton.1 hm').symm (h1 f z')
    · exact absurd (List.mem_singleton.1 hm).symm (h1 f z)
  · exact sane_snoc (sane_mono h.sane hc) hsub (fun f z hx => absurd hx (h1 f z))

/-- Starting a fetcher for a zone that has none. -/
theorem routerInv_spawn {r : Router} {cmds : List IoCmd} (h : RouterInv r cmds) {z : Nat}
    (hl : look r.zones z = none) :
    RouterInv ⟨insert r.zones z r.next, r.next + 1, r.log ++ [.spawned r.next z]⟩ cmds := by
  have hnone : ∀ f, ¬ RunningFor r.log f z := by
    intro f hr
    have := (h.map z f).2 hr
    rw [hl] at this; simp at this
  refine ⟨?_, ?_, ?_, ?_, ?_, ?_⟩
  · intro z' f
    dsimp only
    by_cases hz : z' = z
    · subst hz
      rw [look_insert_self]
      simp only [Option.some.injEq]
      constructor
      · rintro rfl
        refine ⟨by simp, ?_⟩
        intro hm
        rcases List.mem_append.1 hm with hm | hm
        · have := h.stopped _ hm; omega
        · simp at hm
      · rintro ⟨k1, k2⟩
        rcases List.mem_append.1 k1 with k | k
        · exact absurd ⟨k, fun hc => k2 (by simp [hc])⟩ (hnone f)
        · simp only [List.mem_singleton, IoEvent.spawned.injEq] at k
          exact k.1.symm
    · rw [look_insert_other _ _ hz, h.map]
      unfold RunningFor
      simp only [List.mem_append, List.mem_singleton, IoEvent.spawned.injEq, reduceCtorEq, or_false]
      constructor
      · rintro ⟨k1, k2⟩; exact ⟨Or.inl k1, k2⟩
      · rintro ⟨k1, k2⟩
        rcases k1 with k | k
        · exact ⟨k, k2⟩
        · exact absurd k.2 hz
  · intro f z' hm
    rcases List.mem_append.1 hm with hm | hm
    · have := h.small f z' hm; dsimp only; omega
    · simp only [List.mem_singleton, IoEvent.spawned.injEq] at hm
      dsimp only; omega
  · intro f hm
    rcases List.mem_append.1 hm with hm | hm
    · have := h.stopped f hm; dsimp only; omega
    · simp at hm
  · intro f z1 z2 h1 h2
    rcases List.mem_append.1 h1 with h1 | h1
    · rcases List.mem_append.1 h2 with h2 | h2
      · exact h.unique f z1 z2 h1 h2
      · simp only [List.mem_singleton, IoEvent.spawned.injEq] at h2
        have := h.small f z1 h1; omega
    · simp only [List.mem_singleton, IoEvent.spawned.injEq] at h1
      rcases List.mem_append.1 h2 with h2 | h2
      · have := h.small f z2 h2; omega
      · simp only [List.mem_singleton, IoEvent.spawned.injEq] at h2
        rw [h1.2, h2.2]
  · refine sane_snoc h.sane (by simp) ?_
    intro f z' hx f'
    simp only [IoEvent.spawned.injEq] at hx
    rw [← hx.2]; exact hnone f'
  · rw [List.filterMap_append, h.disposed]; simp [disposedOf]

/-- Stopping the fetcher of a zone. -/
theorem routerInv_stop {r : Router} {cmds : List IoCmd} (h : RouterInv r cmds) (z : Nat) :
    RouterInv (r.shutdownZone z) cmds ∧ ∀ f, ¬ RunningFor (r.shutdownZone z).log f z := by
  unfold Router.shutdownZone
  cases hl : look r.zones z with
  | none =>
    refine ⟨h, ?_⟩
    intro f hr
    have := (h.map z f).2 hr
    rw [hl] at this; simp at this
  | some f0 =>
    have hf0 := (h.map z f0).1 hl
    have key : ∀ z' f, RunningFor (r.log ++ [.stopped f0]) f z' ↔ RunningFor r.log f z' ∧ f ≠ f0 := by
      intro z' f
      unfold RunningFor
      simp only [List.mem_append, List.mem_singleton, reduceCtorEq, or_false, IoEvent.stopped.injEq,
        not_or, ne_eq, and_assoc]
    refine ⟨⟨?_, ?_, ?_, ?_, ?_, ?_⟩, ?_⟩
    · intro z' f
      dsimp only
      rw [key]
      by_cases hz : z' = z
      · subst hz
        rw [look_erase_self]
        simp only [reduceCtorEq, false_iff]
        rintro ⟨hr, hne⟩
        have := (h.map z' f).2 hr
        rw [hl] at this
        simp only [Option.some.injEq] at this
        exact hne this.symm
      · rw [look_erase_other _ hz, h.map]
        constructor
        · intro hr
          refine ⟨hr, ?_⟩
          rintro rfl
          exact hz (h.unique _ _ _ hr.1 hf0.1)
        · exact fun hr => hr.1
    · intro f z' hm
      rcases List.mem_append.1 hm with hm | hm
      · exact h.small f z' hm
      · simp at hm
    · intro f hm
      rcases List.mem_append.1 hm with hm | hm
      · exact h.stopped f hm
      · simp only [List.mem_singleton, IoEvent.stopped.injEq] at hm
        subst hm; exact h.small _ _ hf0.1
    · intro f z1 z2 h1 h2
      rcases List.mem_append.1 h1 with h1 | h1
      · rcases List.mem_append.1 h2 with h2 | h2
        · exact h.unique f z1 z2 h1 h2
        · simp at h2
      · simp at h1
    · exact sane_snoc h.sane (by simp) (by simp)
    · dsimp only; rw [List.filterMap_append, h.disposed]; simp [disposedOf]
    · intro f hr
      dsimp only at hr
      rw [key] at hr
      have := (h.map z f).2 hr.1
      rw [hl] at this
      simp only [Option.some.injEq] at this
      exact hr.2 this.symm

theorem router_snoc (cmds : List IoCmd) (c : IoCmd) :
    (cmds ++ [c]).foldl Router.step ⟨[], 0, []⟩ = (cmds.foldl Router.step ⟨[], 0, []⟩).step c := by
  simp

theorem routerInv_all (cmds : List IoCmd) : RouterInv (cmds.foldl Router.step ⟨[], 0, []⟩) cmds := by
  refine list_snoc_induction (P := fun cmds => RouterInv (cmds.foldl Router.step ⟨[], 0, []⟩) cmds)
    ?_ ?_ cmds
  · refine ⟨?_, by simp, by simp, by simp, ⟨by simp, ?_⟩, rfl⟩
    · intro z f; simp [look, RunningFor]
    · intro pre post h f f' z h1 h2
      have : pre = [] := by
        have h' : pre ++ post = [] := h.symm
        exact (List.append_eq_nil_iff.1 h').1
      subst this
      simp [RunningFor] at h1
  · intro cmds c ih
    rw [router_snoc]
    have hsub : ∀ x ∈ cmds, x ∈ cmds ++ [c] := fun x hx => by simp [hx]
    cases c with
    | fetch z q b =>
      simp only [Router.step, Router.fetcher]
      cases hl : look (cmds.foldl Router.step ⟨[], 0, []⟩).zones z with
      | some f =>
        refine routerInv_log ih hsub (by simp) (by simp) ?_ ?_
        · intro q' f' hx
          simp only [IoEvent.submitted.injEq] at hx
          obtain ⟨rfl, rfl⟩ := hx
          exact ⟨z, b, by simp, (ih.map z f).1 hl⟩
        · simp [ih.disposed, disposedOf, requestOf]
      | none =>
        cases b with
        | true =>
          dsimp only
          rw [if_pos rfl]
          have h1 := routerInv_spawn ih hl
          refine routerInv_log h1 hsub (by simp) (by simp) ?_ ?_
          · intro q' f' hx
            simp only [IoEvent.submitted.injEq] at hx
            obtain ⟨rfl, rfl⟩ := hx
            exact ⟨z, true, by simp, (h1.map z _).1 (look_insert_self _ _ _)⟩
          · rw [List.filterMap_append, h1.disposed, List.filterMap_append]; rfl
        | false =>
          dsimp only
          rw [if_neg (by simp)]
          refine routerInv_log ih hsub (by simp) (by simp) (by simp) ?_
          simp [ih.disposed, disposedOf, requestOf]
    | decision t =>
      refine routerInv_log ih hsub (by simp) (by simp) (by simp) ?_
      rw [List.filterMap_append, ih.disposed, List.filterMap_append]; rfl
    | shutdownZone z k =>
      have h1 := (routerInv_stop ih z).1
      refine routerInv_log h1 hsub (by simp) (by simp) (by simp) ?_
      rw [List.filterMap_append, h1.disposed, List.filterMap_append]; rfl

theorem ioThread_log (cmds : List IoCmd) (n : Nat) :
    (ioThread cmds n).log = handled (cmds.take n) ++
      ((cmds.take n).foldl Router.step ⟨[], 0, []⟩).zones.map (fun p => IoEvent.stopped p.2) ++
      (cmds.drop n).flatMap leftover := rfl

/-- C120: every request that was sent is disposed of once and in order: it is submitted to a
fetcher, or dropped so that whoever waits for it sees that. -/
theorem C120_every_request (cmds : List IoCmd) (n : Nat) :
    (ioThread cmds n).log.filterMap disposedOf = cmds.filterMap requestOf := by
  rw [ioThread_log, List.filterMap_append, List.filterMap_append]
  have h1 := (routerInv_all (cmds.take n)).disposed
  have h1' : (handled (cmds.take n)).filterMap disposedOf = (cmds.take n).filterMap requestOf := h1
  have h2 : ∀ l : List (Nat × Nat), (l.map (fun p => IoEvent.stopped p.2)).filterMap disposedOf = [] := by
    intro l; induction l with
    | nil => rfl
    | cons x xs ih => rw [List.map_cons, List.filterMap_cons_none rfl, ih]
  have h3 : ∀ l : List IoCmd, (l.flatMap leftover).filterMap disposedOf = l.filterMap requestOf := by
    intro l; induction l with
    | nil => rfl
    | cons x xs ih =>
      rw [List.flatMap_cons, List.filterMap_append, ih]
      cases x <;> rfl
  rw [h1', h2, h3, List.append_nil, ← List.filterMap_append, List.take_append_drop]

theorem sane_append {log more : List IoEvent} {cmds : List IoCmd} (h : Sane log cmds)
    (h1 : ∀ q f, .submitted q f ∉ more) (h2 : ∀ f z, .spawned f z ∉ more) :
    Sane (log ++ more) cmds := by
  induction more generalizing log with
  | nil => simpa using h
  | cons x xs ih =>
    have : log ++ x :: xs = (log ++ [x]) ++ xs := by simp
    rw [this]
    refine ih (sane_snoc h ?_ ?_) (fun q f hc => h1 q f (by simp [hc])) (fun f z hc => h2 f z (by simp [hc]))
    · intro q f hx; exact absurd (by simp [hx]) (h1 q f)
    · intro f z hx; exact absurd (by simp [hx]) (h2 f z)

theorem thread_sane (cmds : List IoCmd) (n : Nat) : Sane (ioThread cmds n).log (cmds.take n) := by
  rw [ioThread_log]
  have hleft : ∀ x, x ∈ (cmds.drop n).flatMap leftover → ∃ q, x = .dropped q := by
    intro x hx
    obtain ⟨c, _, hc⟩ := List.mem_flatMap.1 hx
    cases c <;> simp [leftover] at hc
    exact ⟨_, hc⟩
  refine sane_append (sane_append (routerInv_all (cmds.take n)).sane ?_ ?_) ?_ ?_
  · intro q f hm; simp at hm
  · intro f z hm; simp at hm
  · intro q f hm; obtain ⟨_, h⟩ := hleft _ hm; simp at h
  · intro f z hm; obtain ⟨_, h⟩ := hleft _ hm; simp at h

/-- C120: a request is only ever submitted to a fetcher of its own zone, one that was started for
that zone and has not been stopped; and this only if the command was taken before the thread was
told to end. -/
theorem C120_own_fetcher (cmds : List IoCmd) (n q f : Nat) (pre post : List IoEvent)
    (h : (ioThread cmds n).log = pre ++ .submitted q f :: post) :
    ∃ z b, .fetch z q b ∈ cmds.take n ∧ RunningFor pre f z :=
  (thread_sane cmds n).right pre q f post h

/-- C120: at no moment do two fetchers run for one zone. -/
theorem C120_one_fetcher (cmds : List IoCmd) (n : Nat) (pre post : List IoEvent)
    (h : (ioThread cmds n).log = pre ++ post) (f f' z : Nat) (hf : RunningFor pre f z)
    (hf' : RunningFor pre f' z) : f = f' :=
  (thread_sane cmds n).single pre post h f f' z hf hf'

/-- C120: a request that is taken is submitted if its zone has a fetcher or one can be built, and
dropped otherwise. -/
theorem C120_request_taken (cmds : List IoCmd) (z q : Nat) (b : Bool) :
    ((b = true ∨ ∃ f, RunningFor (handled cmds) f z) →
      ∃ f new, handled (cmds ++ [.fetch z q b]) = handled cmds ++ new ++ [.submitted q f] ∧
        RunningFor (handled cmds ++ new) f z) ∧
    (¬ (b = true ∨ ∃ f, RunningFor (handled cmds) f z) →
      handled (cmds ++ [.fetch z q b]) = handled cmds ++ [.dropped q]) := by
  have hinv := routerInv_all cmds
  unfold handled
  rw [router_snoc]
  simp only [Router.step, Router.fetcher]
  cases hl : look (cmds.foldl Router.step ⟨[], 0, []⟩).zones z with
  | some f =>
    have hr := (hinv.map z f).1 hl
    refine ⟨fun _ => ⟨f, [], by simp, by simpa using hr⟩, fun h => absurd (Or.inr ⟨f, hr⟩) h⟩
  | none =>
    cases b with
    | true =>
      have h1 := routerInv_spawn hinv hl
      refine ⟨fun _ => ⟨_, [.spawned _ z], ?_, (h1.map z _).1 (look_insert_self _ _ _)⟩,
        fun h => absurd (Or.inl rfl) h⟩
      simp
    | false =>
      refine ⟨?_, fun _ => by simp⟩
      rintro (h | ⟨f, h⟩)
      · simp at h
      · have := (hinv.map z f).2 h
        rw [hl] at this; simp at this

/-- C120: when the shutdown of a zone is acknowledged, no fetcher runs for it. -/
theorem C120_zone_stopped (cmds : List IoCmd) (z k : Nat) :
    (∃ new, handled (cmds ++ [.shutdownZone z k]) = handled cmds ++ new ++ [.acked k]) ∧
    ∀ f, ¬ RunningFor (handled (cmds ++ [.shutdownZone z k])) f z := by
  have hinv := routerInv_all cmds
  obtain ⟨_, h2⟩ := routerInv_stop hinv z
  unfold handled
  rw [router_snoc]
  simp only [Router.step]
  constructor
  · unfold Router.shutdownZone
    cases hl : look (cmds.foldl Router.step ⟨[], 0, []⟩).zones z with
    | some f => exact ⟨[.stopped f], rfl⟩
    | none => exact ⟨[], by simp⟩
  · intro f
    rw [runningFor_snoc_other (by simp) (by simp)]
    exact h2 f

theorem look_mem {α β : Type} [DecidableEq α] {m : List (α × β)} {k : α} {x : β}
    (h : look m k = some x) : (k, x) ∈ m := by
  induction m with
  | nil => simp [look] at h
  | cons p m ih =>
    obtain ⟨a, b⟩ := p
    by_cases hk : a = k
    · subst hk
      simp only [look, if_true, Option.some.injEq] at h
      simp [h]
    · simp only [look, hk, if_false] at h
      simp [ih h]

/-- C120: when the thread has ended no fetcher runs, and every request it had not taken is
dropped. -/
theorem C120_all_stopped (cmds : List IoCmd) (n : Nat) :
    (∀ f z, ¬ RunningFor (ioThread cmds n).log f z) ∧
    ∀ z q b, .fetch z q b ∈ cmds.drop n → .dropped q ∈ (ioThread cmds n).log := by
  rw [ioThread_log]
  constructor
  · rintro f z ⟨h1, h2⟩
    simp only [List.mem_append, not_or] at h1 h2
    obtain ⟨⟨h2a, h2b⟩, _⟩ := h2
    have hin : IoEvent.spawned f z ∈ handled (cmds.take n) := by
      rcases h1 with (h | h) | h
      · exact h
      · simp at h
      · obtain ⟨c, _, hc⟩ := List.mem_flatMap.1 h
        cases c <;> simp [leftover] at hc
    have hl := ((routerInv_all (cmds.take n)).map z f).2 ⟨hin, h2a⟩
    exact h2b (List.mem_map.2 ⟨(z, f), look_mem hl, rfl⟩)
  · intro z q b hm
    simp only [List.mem_append]
    exact Or.inr (List.mem_flatMap.2 ⟨_, hm, by simp [leftover]⟩)

/-- Two zones, one that cannot get a fetcher, and an end before the last request is taken. -/
example : (ioThread [.fetch 1 10 true, .fetch 2 11 true, .fetch 1 12 false, .fetch 3 13 false,
      .shutdownZone 1 77, .fetch 2 14 true] 5).log =
    [.spawned 0 1, .submitted 10 0, .spawned 1 2, .submitted 11 1, .submitted 12 0, .dropped 13,
     .stopped 0, .acked 77, .stopped 1, .dropped 14] := by decide

/-- Full property: after its shutdown a zone fetches nothing. Violated: a request that comes after
the shutdown of its zone, from a task that outlived its tab, starts a new fetcher for the closed
zone, which runs until the engine is shut down. -/
theorem C120_closed_zone_violated (cmds : List IoCmd) (z k q : Nat) :
    ∃ f, RunningFor (handled (cmds ++ [.shutdownZone z k] ++ [.fetch z q true])) f z ∧
      .submitted q f ∈ handled (cmds ++ [.shutdownZone z k] ++ [.fetch z q true]) := by
  obtain ⟨f, new, h1, h2⟩ := (C120_request_taken (cmds ++ [.shutdownZone z k]) z q true).1 (Or.inl rfl)
  rw [h1]
  refine ⟨f, ?_, by simp⟩
  rw [runningFor_snoc_other (by simp) (by simp)]
  exact h2

/-! ## C122 -/

theorem reports_snoc (as : List Act) (a : Act) : reports (as ++ [a]) = (reports as).step a := by
  simp [reports, Reports.after]

/-- Whether the zone exists. -/
def Made (as : List Act) (z : Nat) : Prop := ∃ s, .zone z s ∈ as

theorem changes_fold (as : List Act) (z : Nat) :
    (as.foldl (noteChange z) (false, [])).1 = true ↔ Made as z := by
  refine list_snoc_induction (P := fun as =>
    (as.foldl (noteChange z) (false, [])).1 = true ↔ Made as z) ?_ ?_ as
  · simp [Made]
  · intro as a ih
    rw [List.foldl_append]
    simp only [List.foldl_cons, List.foldl_nil]
    have hm : Made (as ++ [a]) z ↔ Made as z ∨ ∃ s, a = .zone z s := by
      unfold Made
      simp only [List.mem_append, List.mem_singleton]
      constructor
      · rintro ⟨s, h | h⟩
        · exact Or.inl ⟨s, h⟩
        · exact Or.inr ⟨s, h.symm⟩
      · rintro (⟨s, h⟩ | ⟨s, h⟩)
        · exact ⟨s, Or.inl h⟩
        · exact ⟨s, Or.inr h.symm⟩
    rw [hm, ← ih]
    cases a with
    | zone id s =>
      simp only [noteChange, Bool.or_eq_true, decide_eq_true_eq, Act.zone.injEq]
      constructor
      · rintro (h | h)
        · exact Or.inl h
        · exact Or.inr ⟨s, h, rfl⟩
      · rintro (h | ⟨_, h, _⟩)
        · exact Or.inl h
        · exact Or.inr h
    | change s c =>
      simp only [noteChange, reduceCtorEq, exists_false, or_false]
      split <;> rfl
    | turn n => simp [noteChange]

theorem changesOf_snoc (as : List Act) (a : Act) (z : Nat) :
    (∀ s c, a = .change s c → c.zone = z → Made as z →
      changesOf (as ++ [a]) z = changesOf as z ++ [c.what]) ∧
    ((∀ s c, a = .change s c → c.zone = z → ¬ Made as z) →
      changesOf (as ++ [a]) z = changesOf as z) := by
  have hf := changes_fold as z
  unfold changesOf
  rw [List.foldl_append]
  simp only [List.foldl_cons, List.foldl_nil]
  constructor
  · rintro s c rfl hz hm
    simp only [noteChange]
    rw [hf.2 hm]
    simp [hz]
  · intro h
    cases a with
    | zone id s => rfl
    | turn n => rfl
    | change s c =>
      simp only [noteChange]
      split
      · rename_i hc
        simp only [Bool.and_eq_true, decide_eq_true_eq] at hc
        exact absurd (hf.1 hc.1) (h s c rfl hc.2)
      · rfl

theorem toldOf_snoc_same (as : List Act) (a : Act) (z : Nat)
    (h : ((reports as).step a).told = (reports as).told) : toldOf (as ++ [a]) z = toldOf as z := by
  unfold toldOf; rw [reports_snoc, h]

theorem ownStorage_prefix {as : List Act} {a : Act} (h : OwnStorage (as ++ [a])) : OwnStorage as :=
  ⟨fun pre id s post he => h.zones pre id s (post ++ [a]) (by rw [he]; simp),
   fun s c hc id s' hz => h.changes s c (by simp [hc]) id s' (by simp [hz])⟩

theorem keepsUp_prefix {as : List Act} {a : Act} (h : KeepsUp (as ++ [a])) : KeepsUp as :=
  fun pre s c post he => h pre s c (post ++ [a]) (by rw [he]; simp)

/-- The forwarders of a well-run engine. -/
structure ReportInv (as : List Act) : Prop where
  tasks : ∀ f ∈ (reports as).tasks, .zone f.zone f.storage ∈ as ∧ f.lagged = false ∧
    f.ended = false ∧ toldOf as f.zone ++ f.unread.map Change.what = changesOf as f.zone
  zones : ∀ id s, .zone id s ∈ as → ∃ f ∈ (reports as).tasks, f.zone = id ∧ f.storage = s
  nodup : ((reports as).tasks.map Forwarder.zone).Nodup
  unmade : ∀ z, ¬ Made as z → toldOf as z = [] ∧ changesOf as z = []

theorem reportInv_all (as : List Act) (ho : OwnStorage as) (hk : KeepsUp as) : ReportInv as := by
  revert ho hk
  refine list_snoc_induction (P := fun as => OwnStorage as → KeepsUp as → ReportInv as) ?_ ?_ as
  · intro _ _
    exact ⟨by simp [reports, Reports.after], by simp, by simp [reports, Reports.after],
      fun z _ => ⟨rfl, rfl⟩⟩
  · intro as a ih ho hk
    have h := ih (ownStorage_prefix ho) (keepsUp_prefix hk)
    cases a with
    | zone id s =>
      have htold : ∀ z, toldOf (as ++ [.zone id s]) z = toldOf as z :=
        fun z => toldOf_snoc_same as _ z rfl
      have hch : ∀ z, changesOf (as ++ [.zone id s]) z = changesOf as z :=
        fun z => (changesOf_snoc as _ z).2 (by simp)
      have hnew : ¬ Made as id := by
        rintro ⟨s', hm⟩
        exact (ho.zones as id s [] (by simp) id s' hm).1 rfl
      have htasks : (reports (as ++ [.zone id s])).tasks =
          (reports as).tasks ++ [⟨id, s, [], false, false⟩] := by rw [reports_snoc]; rfl
      refine ⟨?_, ?_, ?_, ?_⟩
      · intro f hf
        rw [htasks] at hf
        rw [htold, hch]
        rcases List.mem_append.1 hf with hf | hf
        · obtain ⟨h1, h2⟩ := h.tasks f hf
          exact ⟨by simp [h1], h2⟩
        · have : f = ⟨id, s, [], false, false⟩ := by simpa using hf
          subst this
          obtain ⟨k1, k2⟩ := h.unmade id hnew
          exact ⟨by simp, rfl, rfl, by simp [k1, k2]⟩
      · intro id' s' hm
        rw [htasks]
        rcases List.mem_append.1 hm with hm | hm
        · obtain ⟨f, hf, hf'⟩ := h.zones id' s' hm
          exact ⟨f, by simp [hf], hf'⟩
        · simp only [List.mem_singleton, Act.zone.injEq] at hm
          exact ⟨⟨id, s, [], false, false⟩, by simp, hm.1.symm, hm.2.symm⟩
      · rw [htasks, List.map_append]
        refine List.nodup_append.2 ⟨h.nodup, by simp, ?_⟩
        intro x hx y hy hxy
        have : y = id := by simpa using hy
        subst this; subst hxy
        obtain ⟨f, hf, hf'⟩ := List.mem_map.1 hx
        exact hnew ⟨f.storage, by rw [← hf']; exact (h.tasks f hf).1⟩
      · intro z hz
        rw [htold, hch]
        exact h.unmade z (fun ⟨s', hm⟩ => hz ⟨s', by simp [hm]⟩)
    | change s c =>
      have htold : ∀ z, toldOf (as ++ [.change s c]) z = toldOf as z :=
        fun z => toldOf_snoc_same as _ z rfl
      have htasks : (reports (as ++ [.change s c])).tasks =
          (reports as).tasks.map (fun f => if f.storage = s then f.deliver c else f) := by
        rw [reports_snoc]; rfl
      have hzone : ∀ f : Forwarder, (if f.storage = s then f.deliver c else f).zone = f.zone ∧
          (if f.storage = s then f.deliver c else f).storage = f.storage := by
        intro f
        unfold Forwarder.deliver
        split
        · split <;> exact ⟨rfl, rfl⟩
        · exact ⟨rfl, rfl⟩
      have hmade : ∀ z, Made (as ++ [.change s c]) z ↔ Made as z := by
        intro z; unfold Made
        simp
      refine ⟨?_, ?_, ?_, ?_⟩
      · intro f hf
        rw [htasks] at hf
        obtain ⟨f0, hf0, rfl⟩ := List.mem_map.1 hf
        obtain ⟨h1, h2, h3, h4⟩ := h.tasks f0 hf0
        rw [(hzone f0).1, (hzone f0).2, htold]
        refine ⟨by simp [h1], ?_⟩
        have hiff := ho.changes s c (by simp) f0.zone f0.storage (by simp [h1])
        by_cases hs : f0.storage = s
        · have hz : f0.zone = c.zone := hiff.1 hs
          have hup := hk as s c [] (by simp)
          rw [← hz, ← h4] at hup
          have hlen : f0.unread.length < capacity := by
            simp only [List.length_append, List.length_map] at hup
            unfold capacity; omega
          rw [if_pos hs]
          unfold Forwarder.deliver
          rw [if_pos hlen]
          refine ⟨h2, h3, ?_⟩
          rw [(changesOf_snoc as (.change s c) f0.zone).1 s c rfl hz.symm ⟨_, h1⟩, ← h4]
          simp
        · rw [if_neg hs]
          refine ⟨h2, h3, ?_⟩
          rw [(changesOf_snoc as (.change s c) f0.zone).2 ?_]
          · exact h4
          · intro s' c' he hz' _
            simp only [Act.change.injEq] at he
            obtain ⟨rfl, rfl⟩ := he
            exact hs (hiff.2 hz'.symm)
      · intro id s' hm
        have hm' : Act.zone id s' ∈ as := by simpa using hm
        obtain ⟨f, hf, hf'⟩ := h.zones id s' hm'
        rw [htasks]
        refine ⟨_, List.mem_map_of_mem hf, ?_⟩
        rw [(hzone f).1, (hzone f).2]; exact hf'
      · rw [htasks, List.map_map]
        have : (Forwarder.zone ∘ fun f => if f.storage = s then f.deliver c else f) =
            Forwarder.zone := by
          funext f; exact (hzone f).1
        rw [this]; exact h.nodup
      · intro z hz
        rw [hmade] at hz
        rw [htold, (changesOf_snoc as (.change s c) z).2 (fun _ _ _ _ => hz)]
        exact h.unmade z hz
    | turn n =>
      have hch : ∀ z, changesOf (as ++ [.turn n]) z = changesOf as z :=
        fun z => (changesOf_snoc as _ z).2 (by simp)
      have hmade : ∀ z, Made (as ++ [.turn n]) z ↔ Made as z := by
        intro z; unfold Made
        simp
      cases hg : (reports as).tasks[n]? with
      | none =>
        have hsame : reports (as ++ [.turn n]) = reports as := by
          rw [reports_snoc]; simp [Reports.step, hg]
        have htold : ∀ z, toldOf (as ++ [.turn n]) z = toldOf as z := by
          intro z; unfold toldOf; rw [hsame]
        refine ⟨?_, ?_, ?_, ?_⟩
        · intro f hf
          rw [hsame] at hf
          rw [htold, hch]
          obtain ⟨h1, h2⟩ := h.tasks f hf
          exact ⟨by simp [h1], h2⟩
        · intro id s hm
          rw [hsame]
          exact h.zones id s (by simpa using hm)
        · rw [hsame]; exact h.nodup
        · intro z hz
          rw [htold, hch]
          exact h.unmade z (fun hm => hz ((hmade z).2 hm))
      | some f0 =>
        have hf0 : f0 ∈ (reports as).tasks := List.mem_of_getElem? hg
        obtain ⟨g1, g2, g3, g4⟩ := h.tasks f0 hf0
        have hstep : reports (as ++ [.turn n]) =
            ⟨(reports as).tasks.set n f0.turn.1, (reports as).told ++ f0.turn.2⟩ := by
          rw [reports_snoc]; simp [Reports.step, hg]
        have hn := (List.getElem?_eq_some_iff.1 hg).1
        have hturn : f0.turn.1.zone = f0.zone ∧ f0.turn.1.storage = f0.storage ∧
            f0.turn.1.lagged = false ∧ f0.turn.1.ended = false ∧
            f0.turn.2.map Change.what ++ f0.turn.1.unread.map Change.what =
              f0.unread.map Change.what ∧ ∀ c ∈ f0.turn.2, c.zone = f0.zone := by
          unfold Forwarder.turn
          rw [g3, g2]
          simp only [Bool.false_eq_true, if_false]
          cases hu : f0.unread with
          | nil => simp [hu, g2, g3]
          | cons c cs => simp [g2, g3]
        obtain ⟨t1, t2, t3, t4, t5, t6⟩ := hturn
        have htold_self : toldOf (as ++ [.turn n]) f0.zone =
            toldOf as f0.zone ++ f0.turn.2.map Change.what := by
          unfold toldOf
          rw [hstep]
          dsimp only
          rw [List.filter_append, List.map_append]
          congr 2
          exact List.filter_eq_self.2 (fun c hc => by simp [t6 c hc])
        have htold_other : ∀ z, z ≠ f0.zone → toldOf (as ++ [.turn n]) z = toldOf as z := by
          intro z hz
          unfold toldOf
          rw [hstep]
          dsimp only
          rw [List.filter_append, List.map_append]
          have : f0.turn.2.filter (fun c => decide (c.zone = z)) = [] := by
            refine List.filter_eq_nil_iff.2 (fun c hc => ?_)
            rw [t6 c hc]; simp [Ne.symm hz]
          rw [this]; simp
        have hzones : (reports (as ++ [.turn n])).tasks.map Forwarder.zone =
            (reports as).tasks.map Forwarder.zone := by
          rw [hstep]
          dsimp only
          rw [List.map_set, t1]
          refine List.ext_getElem? (fun m => ?_)
          by_cases hm : n = m
          · subst hm
            have hgn : (reports as).tasks[n] = f0 := (List.getElem?_eq_some_iff.1 hg).2
            simp [hn, hgn]
          · simp [List.getElem?_set, hm]
        refine ⟨?_, ?_, ?_, ?_⟩
        · intro f hf
          rw [hstep] at hf
          obtain ⟨m, hm⟩ := List.getElem?_of_mem hf
          dsimp only at hm
          rw [List.getElem?_set] at hm
          rw [hch]
          by_cases hnm : n = m
          · subst hnm
            simp only [if_true, hn] at hm
            have : f = f0.turn.1 := by simpa using hm.symm
            subst this
            rw [t1, t2, htold_self]
            refine ⟨by simp [g1], t3, t4, ?_⟩
            rw [List.append_assoc, t5, g4]
          · rw [if_neg hnm] at hm
            have hfm : f ∈ (reports as).tasks := List.mem_of_getElem? hm
            obtain ⟨h1, h2, h3, h4⟩ := h.tasks f hfm
            have hne : f.zone ≠ f0.zone := by
              intro hc
              have e1 : ((reports as).tasks.map Forwarder.zone)[n]? = some f0.zone := by simp [hg]
              have e2 : ((reports as).tasks.map Forwarder.zone)[m]? = some f0.zone := by
                simp [hm, hc]
              exact hnm ((List.getElem?_inj (by simpa using hn) h.nodup).1 (e1.trans e2.symm))
            rw [htold_other _ hne]
            exact ⟨by simp [h1], h2, h3, h4⟩
        · intro id s hm
          obtain ⟨f, hf, hf1, hf2⟩ := h.zones id s (by simpa using hm)
          obtain ⟨m, hm'⟩ := List.getElem?_of_mem hf
          rw [hstep]
          dsimp only
          by_cases hnm : n = m
          · subst hnm
            have : f = f0 := by rw [hg] at hm'; simpa using hm'.symm
            subst this
            refine ⟨f.turn.1, ?_, t1.trans hf1, t2.trans hf2⟩
            exact List.mem_of_getElem? (i := n) (by simp [List.getElem?_set, hn])
          · refine ⟨f, ?_, hf1, hf2⟩
            exact List.mem_of_getElem? (i := m) (by simp [List.getElem?_set, hnm, hm'])
        · rw [hzones]; exact h.nodup
        · intro z hz
          have hz' : ¬ Made as z := fun hm => hz ((hmade z).2 hm)
          have hne : z ≠ f0.zone := by
            rintro rfl
            exact hz' ⟨_, g1⟩
          rw [htold_other z hne, hch]
          exact h.unmade z hz'

/-- C122: if every zone has a storage service of its own and the forwarders keep up, the embedder
is told of the changes in each zone in order, none twice, none left out and none of another zone;
and a zone it has not been told everything about has a forwarder whose next turn tells the next
change. -/
theorem C122_changes_told_partial (as : List Act) (ho : OwnStorage as) (hk : KeepsUp as) (z : Nat) :
    toldOf as z <+: changesOf as z ∧
    (toldOf as z ≠ changesOf as z →
      ∃ n, toldOf (as ++ [.turn n]) z = (changesOf as z).take ((toldOf as z).length + 1)) := by
  have h := reportInv_all as ho hk
  by_cases hm : Made as z
  · obtain ⟨s, hs⟩ := hm
    obtain ⟨f, hf, rfl, rfl⟩ := h.zones z s hs
    obtain ⟨_, h2, h3, h4⟩ := h.tasks f hf
    refine ⟨⟨_, h4⟩, ?_⟩
    intro hne
    obtain ⟨n, hn⟩ := List.getElem?_of_mem hf
    refine ⟨n, ?_⟩
    cases hu : f.unread with
    | nil => rw [hu] at h4; simp at h4; exact absurd h4 hne
    | cons c cs =>
      rw [← h4, hu]
      have : toldOf (as ++ [.turn n]) f.zone = toldOf as f.zone ++ [c.what] := by
        unfold toldOf
        rw [reports_snoc]
        simp [Reports.step, hn, Forwarder.turn, h2, h3, hu]
      rw [this, List.take_length_add_append]
      simp
  · obtain ⟨h1, h2⟩ := h.unmade z hm
    rw [h1, h2]
    exact ⟨List.prefix_refl _, fun hc => absurd rfl hc⟩

/-- Two zones with storage services of their own, and a change in each. -/
example : OwnStorage [.zone 1 5, .zone 2 6, .change 5 ⟨1, 40⟩, .change 6 ⟨2, 41⟩, .turn 1] ∧
    KeepsUp [.zone 1 5, .zone 2 6, .change 5 ⟨1, 40⟩, .change 6 ⟨2, 41⟩, .turn 1] ∧
    toldOf [.zone 1 5, .zone 2 6, .change 5 ⟨1, 40⟩, .change 6 ⟨2, 41⟩, .turn 1] 2 = [41] ∧
    toldOf [.zone 1 5, .zone 2 6, .change 5 ⟨1, 40⟩, .change 6 ⟨2, 41⟩, .turn 1] 1 = [] := by
  refine ⟨⟨?_, ?_⟩, ?_, by decide, by decide⟩
  · intro pre id s post h id' s' hm
    match pre, h with
    | [], _ => simp at hm
    | [_], h =>
      simp only [List.cons_append, List.nil_append, List.cons.injEq, Act.zone.injEq] at h
      simp only [List.mem_singleton] at hm
      rw [← h.1] at hm
      simp only [Act.zone.injEq] at hm
      omega
    | [_, _], h => simp at h
    | [_, _, _], h => simp at h
    | [_, _, _, _], h => simp at h
    | _ :: _ :: _ :: _ :: _ :: _, h => simp at h
  · intro s c hc id s' hz
    simp at hc hz
    rcases hc with ⟨rfl, rfl⟩ | ⟨rfl, rfl⟩ <;> rcases hz with ⟨rfl, rfl⟩ | ⟨rfl, rfl⟩ <;> simp
  · intro pre s c post h
    have hlen : pre.length < 5 := by
      have := congrArg List.length h
      simp at this; omega
    have hle : (changesOf pre c.zone).length ≤ pre.length := by
      refine list_snoc_induction (P := fun pre => (changesOf pre c.zone).length ≤ pre.length)
        (by simp [changesOf]) ?_ pre
      intro as a ih
      by_cases hm : ∃ s c', a = .change s c' ∧ c'.zone = c.zone ∧ Made as c.zone
      · obtain ⟨s, c', h1, h2, h3⟩ := hm
        rw [(changesOf_snoc as a c.zone).1 s c' h1 h2 h3]; simp; omega
      · rw [(changesOf_snoc as a c.zone).2 (fun s c' h1 h2 h3 => hm ⟨s, c', h1, h2, h3⟩)]
        simp; omega
    omega

/-- Full property: the embedder is told of each change once, under the zone that made it. Violated:
zones that are given one storage service each report every change in it under their own name. -/
theorem C122_shared_storage_violated :
    (reports [.zone 1 5, .zone 2 5, .change 5 ⟨1, 9⟩, .turn 0, .turn 1]).told =
      [⟨1, 9⟩, ⟨2, 9⟩] := by decide

theorem silent_step {r : Reports} (ht : r.told = []) (hf : ∀ f ∈ r.tasks, f.unread = [] ∨
    f.lagged = true ∨ f.ended = true) (n : Nat) :
    (r.step (.turn n)).told = [] ∧ ∀ f ∈ (r.step (.turn n)).tasks, f.unread = [] ∨
    f.lagged = true ∨ f.ended = true := by
  simp only [Reports.step]
  cases hg : r.tasks[n]? with
  | none => exact ⟨ht, hf⟩
  | some f0 =>
    have h0 := hf f0 (List.mem_of_getElem? hg)
    have : f0.turn.2 = [] ∧ (f0.turn.1.unread = [] ∨ f0.turn.1.lagged = true ∨
        f0.turn.1.ended = true) := by
      unfold Forwarder.turn
      cases he : f0.ended with
      | true => simp [he]
      | false =>
        cases hl : f0.lagged with
        | true => simp [hl]
        | false =>
          rcases h0 with h0 | h0 | h0
          · simp [h0]
          · rw [hl] at h0; simp at h0
          · rw [he] at h0; simp at h0
    refine ⟨by simp [ht, this.1], ?_⟩
    intro f hm
    rcases List.mem_or_eq_of_mem_set hm with hm | rfl
    · exact hf f hm
    · exact this.2

/-- Full property: every change is told. Violated: what a tab changes in a storage service of its
own, custom or ephemeral, is never told, however often the forwarders run. -/
theorem C122_own_storage_violated (turns : List Nat) :
    (reports ([.zone 1 5, .change 6 ⟨1, 9⟩] ++ turns.map Act.turn)).told = [] := by
  have : ∀ (turns : List Nat) (r : Reports), r.told = [] →
      (∀ f ∈ r.tasks, f.unread = [] ∨ f.lagged = true ∨ f.ended = true) →
      ((turns.map Act.turn).foldl Reports.step r).told = [] := by
    intro turns
    induction turns with
    | nil => intro r h _; exact h
    | cons n ns ih =>
      intro r h hf
      obtain ⟨h1, h2⟩ := silent_step h hf n
      exact ih _ h1 h2
  unfold reports Reports.after
  rw [List.foldl_append]
  exact this turns _ (by decide) (by decide)

/-- Full property: every change is told. Violated: when a zone makes more changes than the channel
holds before its forwarder gets a turn, the forwarder ends, and no change of that zone is ever told
again, whatever happens then. -/
theorem C122_burst_violated (more : List Act) (h : ∀ id s, .zone id s ∉ more) :
    (reports (.zone 1 5 :: List.replicate 513 (.change 5 ⟨1, 9⟩) ++ more)).told = [] := by
  have key : ∀ (more : List Act), (∀ id s, .zone id s ∉ more) → ∀ r : Reports, r.told = [] →
      (∀ f ∈ r.tasks, f.lagged = true ∨ f.ended = true) → (more.foldl Reports.step r).told = [] := by
    intro more
    induction more with
    | nil => intro _ r h _; exact h
    | cons a as ih =>
      intro hz r ht hf
      have hz' : ∀ id s, Act.zone id s ∉ as := fun id s hm => hz id s (by simp [hm])
      rw [List.foldl_cons]
      cases a with
      | zone id s => exact absurd (by simp) (hz id s)
      | change s c =>
        refine ih hz' _ ht ?_
        intro f hm
        obtain ⟨f0, hf0, rfl⟩ := List.mem_map.1 hm
        have := hf f0 hf0
        split
        · unfold Forwarder.deliver
          split <;> simp_all
        · exact this
      | turn n =>
        simp only [Reports.step]
        cases hg : r.tasks[n]? with
        | none => exact ih hz' r ht hf
        | some f0 =>
          have h0 := hf f0 (List.mem_of_getElem? hg)
          refine ih hz' _ ?_ ?_
          · unfold Forwarder.turn
            rcases h0 with h0 | h0 <;> cases he : f0.ended <;> simp_all
          · intro f hm
            rcases List.mem_or_eq_of_mem_set hm with hm | rfl
            · exact hf f hm
            · unfold Forwarder.turn
              rcases h0 with h0 | h0 <;> cases he : f0.ended <;> simp_all
  unfold reports Reports.after
  rw [List.foldl_append]
  refine key more h _ ?_ ?_
  · decide +kernel
  · decide +kernel

end Verif.Zones
