import Verif.Zones.Lemmas

/-! # C116 and C118: how many zones there are, and the life of the engine -/

namespace Verif.Zones

/-! ## C116 -/

/-- C116: whatever is called, with whatever answers, there are never more open zones than the
engine allows, as long as no zone is asked for with the id of one that is open. -/
theorem C116_zone_limit_partial (max : Nat) (ops : List Op) (hd : Distinct max ops) :
    (openIds (story max ops)).Nodup ∧ (openIds (story max ops)).length ≤ max := by
  obtain ⟨h1, h2⟩ := open_inv max ops hd
  refine ⟨h1, Nat.le_trans ?_ (zones_le max ops)⟩
  exact List.Nodup.length_le_of_subset h1 h2

/-- C116: if somebody receives the events, a zone is refused because of the limit exactly when so
many zones are open, and otherwise given exactly when the engine was started. Closing a zone
gives its place back; dropping it does not. -/
theorem C116_zone_given_partial (max : Nat) (ops : List Op) (hd : Distinct max ops)
    (id : Nat) (st : Option Nat) (hh : Heard (ops ++ [.createZone id st])) :
    ((openIds (story max ops)).length = max →
      answer max ops (.createZone id st) = .failed .zoneLimit) ∧
    ((openIds (story max ops)).length < max → IoStarted ops →
      answer max ops (.createZone id st) = .created id) ∧
    ((openIds (story max ops)).length < max → ¬ IoStarted ops →
      answer max ops (.createZone id st) = .failed .ioNotStarted) := by
  have hz := (exact_inv max ops hd (heard_of_snoc hh)).1
  obtain ⟨p1, _, p3, p4⟩ := plain_inv max ops
  have hl : 0 < listening ops := hh ops id st [] rfl
  have ha : answer max ops (.createZone id st) = _ :=
    create_answer ((Engine.new max).after ops) id st
  rw [ha, p1, p4, hz]
  refine ⟨fun h => by rw [if_pos (Nat.le_of_eq h.symm)], fun h hi => ?_, fun h hi => ?_⟩
  · rw [if_neg (by omega), if_pos (p3.2 hi), if_neg (by omega)]
  · rw [if_neg (by omega), if_neg (fun hc => hi (p3.1 hc))]

/-- The hypotheses are met: two zones of three are open after this history. -/
example : let ops : List Op := [.subscribe, .start, .createZone 1 (some 7), .createZone 2 none,
      .closeZone 1, .createZone 1 none, .dropZone 2]
    openIds (story 3 ops) = [2, 1] ∧
    answer 3 ops (.createZone 4 none) = .created 4 ∧
    answer 2 ops (.createZone 4 none) = .failed .zoneLimit ∧
    answer 2 (ops ++ [.closeZone 1]) (.createZone 4 none) = .created 4 := by decide

/-- Full property: never more open zones than allowed. Violated: a second zone with the id of an
open one is given and takes no place, so any number can be open at once. -/
theorem C116_same_id_violated (n : Nat) :
    let ops : List Op := [.subscribe, .start] ++ List.replicate n (.createZone 5 none)
    Heard ops ∧ (openIds (story 2 ops)).length = n := by
  refine ⟨?_, ?_⟩
  · intro pre id st post h
    cases pre with
    | nil => simp at h
    | cons a pre =>
      cases pre with
      | nil => simp at h
      | cons b pre =>
        simp only [List.cons_append, List.nil_append, List.cons.injEq] at h
        obtain ⟨rfl, rfl, h⟩ := h
        have hp : ∀ op ∈ pre, op = .createZone 5 none := by
          intro op ho
          have : op ∈ List.replicate n (Op.createZone 5 none) := by rw [h]; simp [ho]
          exact (List.mem_replicate.1 this).2
        have : ∀ ops : List Op, (∀ op ∈ ops, op = .createZone 5 none) →
            listening ([.subscribe, .start] ++ ops) = 1 := by
          intro ops
          refine snoc_induction (P := fun ops => (∀ op ∈ ops, op = .createZone 5 none) →
            listening ([.subscribe, .start] ++ ops) = 1) (fun _ => by decide) ?_ ops
          intro os o ih ho
          have h1 := ho o (by simp)
          subst h1
          rw [← List.append_assoc, listening_snoc]
          exact ih (fun op h => ho op (by simp [h]))
        have h1 := this pre hp
        show 0 < listening ([.subscribe, .start] ++ pre)
        omega
  · have key : ∀ n, ((Engine.new 2).after ([.subscribe, .start] ++
          List.replicate n (.createZone 5 none))).zones.length ≤ 1 ∧
        (∀ x ∈ ((Engine.new 2).after ([.subscribe, .start] ++
          List.replicate n (.createZone 5 none))).zones, x = 5) ∧
        ((Engine.new 2).after ([.subscribe, .start] ++
          List.replicate n (.createZone 5 none))).ioTx = true ∧
        ((Engine.new 2).after ([.subscribe, .start] ++
          List.replicate n (.createZone 5 none))).listeners = 1 ∧
        (openIds (story 2 ([.subscribe, .start] ++
          List.replicate n (.createZone 5 none)))).length = n := by
      intro n
      induction n with
      | zero => decide
      | succ n ih =>
        rw [List.replicate_succ', ← List.append_assoc]
        revert ih
        generalize [Op.subscribe, .start] ++ List.replicate n (.createZone 5 none) = ops
        intro ⟨h1, h2, h3, h4, h5⟩
        have hm := (plain_inv 2 ops).1
        have hlt : ¬ ((Engine.new 2).after ops).maxZones ≤ ((Engine.new 2).after ops).zones.length := by
          omega
        have ha : answer 2 ops (.createZone 5 none) = _ :=
          create_answer ((Engine.new 2).after ops) 5 none
        rw [if_neg hlt, if_pos h3, if_neg (by omega)] at ha
        obtain ⟨_, _, k3, k4⟩ := step_plain ((Engine.new 2).after ops) (.createZone 5 none)
        have kz := (step_zones ((Engine.new 2).after ops) (.createZone 5 none)).1
        simp only [if_neg hlt, if_pos h3] at kz
        rw [after_snoc, openIds_snoc, ha, kz, k3, k4, h3, h4]
        refine ⟨?_, ?_, by simp, rfl, by simp [h5]⟩
        · unfold put
          split
          · exact h1
          · rename_i hn
            cases hz : ((Engine.new 2).after ops).zones with
            | nil => simp
            | cons x xs =>
              have := h2 x (by rw [hz]; simp)
              subst this
              exact absurd (by rw [hz]; simp) hn
        · intro x hx
          rcases mem_put.1 hx with hx | hx
          · exact h2 x hx
          · exact hx
    exact (key n).2.2.2.2

/-- Full property: a zone is refused for the limit only when so many are open. Violated: with
nobody receiving events every request fails, and yet takes a place for good, so that in the end
no zone can be made although none is open. -/
theorem C116_unheard_violated :
    answer 1 [.start] (.createZone 1 none) = .failed .internal ∧
    openIds (story 1 [.start, .createZone 1 none, .subscribe]) = [] ∧
    answer 1 [.start, .createZone 1 none, .subscribe] (.createZone 2 none) = .failed .zoneLimit := by
  decide

/-! ## C118 -/

/-- C118: an engine can be started once. -/
theorem C118_start_once (max : Nat) (ops : List Op) :
    (¬ Begun ops → answer max ops .start = .ok) ∧
    (Begun ops → answer max ops .start = .failed .alreadyRunning) := by
  have hrun := (plain_inv max ops).2.1
  constructor
  · intro hb
    have hl := (unmade_inv max ops).2 hb
    have hr : ((Engine.new max).after ops).running = false := by
      cases h : ((Engine.new max).after ops).running with
      | true => exact absurd (hrun.1 h) hb
      | false => rfl
    simp [answer, Engine.step, Engine.start, Engine.run, hr, hl]
  · intro hb
    have hr := hrun.2 hb
    simp [answer, Engine.step, Engine.start, hr]

/-- C118: shutting down an engine that was not started fails and does nothing. -/
theorem C118_shutdown_unstarted (max : Nat) (ops : List Op) (hb : ¬ Begun ops) :
    answer max ops .shutdown = .failed .notRunning ∧
    effects max (ops ++ [.shutdown]) = effects max ops := by
  have hrun := (plain_inv max ops).2.1
  have hr : ((Engine.new max).after ops).running = false := by
    cases h : ((Engine.new max).after ops).running with
    | true => exact absurd (hrun.1 h) hb
    | false => rfl
  constructor
  · simp [answer, Engine.step, shutdown_not _ hr]
  · simp [effects, after_snoc, Engine.step, shutdown_not _ hr]

/-- C118: a shutdown first saves the cookies of every open zone that has a cookie store, and then
stops the I/O thread if it still runs. Nothing else is done, and it is all done whether or not the
call ever returns. -/
theorem C118_shutdown_saves_partial (max : Nat) (ops : List Op) (hd : Distinct max ops)
    (hh : Heard ops) (hb : Begun ops) :
    ∃ (saved : List Nat) (stop : List Effect), effects max (ops ++ [.shutdown]) =
        effects max ops ++ saved.map Effect.persist ++ stop ∧
      (∀ s, s ∈ saved ↔ ∃ z, (z, some s) ∈ openZones (story max ops)) ∧
      (IoRunning ops → stop = [.stopIo]) ∧ (¬ IoRunning ops → stop = []) := by
  have hr := (plain_inv max ops).2.1.2 hb
  have hs := (exact_inv max ops hd hh).2
  have hio := io_inv max ops
  refine ⟨((openZones (story max ops)).filterMap (fun p => p.2.map (fun s => (p.1, s)))).map Prod.snd,
    if ((Engine.new max).after ops).io then [.stopIo] else [], ?_, ?_, ?_, ?_⟩
  · show ((Engine.new max).after (ops ++ [.shutdown])).done = _
    rw [after_snoc]
    show (((Engine.new max).after ops).shutdown).1.done = _
    rw [shutdown_eq _ hr, (stopLoop_keeps _).2.2.2.2.2.2.2]
    simp [beforeStop, hs, effects, List.map_map, Function.comp_def]
  · intro s
    simp only [List.mem_map, List.mem_filterMap]
    constructor
    · rintro ⟨⟨z, s'⟩, ⟨⟨z', st⟩, hq, hq'⟩, rfl⟩
      cases st with
      | none => simp at hq'
      | some s'' =>
        simp only [Option.map_some, Option.some.injEq, Prod.mk.injEq] at hq'
        obtain ⟨rfl, rfl⟩ := hq'
        exact ⟨z', hq⟩
    · rintro ⟨z, hz⟩
      exact ⟨(z, s), ⟨(z, some s), hz, by simp⟩, rfl⟩
  · intro h; rw [hio.2 h]; rfl
  · intro h
    cases hc : ((Engine.new max).after ops).io with
    | true => exact absurd (hio.1 hc) h
    | false => rfl

/-- C118: a shutdown succeeds exactly when the run-loop future is being polled and none was asked
for before. -/
theorem C118_shutdown_succeeds (max : Nat) (ops : List Op) :
    answer max ops .shutdown = .ok ↔ Driven ops := by
  rw [← (loop_inv max ops).2]
  have hrun := (plain_inv max ops).2.1
  cases hr : ((Engine.new max).after ops).running with
  | false =>
    have hl := running_unmade max ops hr
    simp [answer, Engine.step, shutdown_not _ hr, hl]
  | true =>
    have : answer max ops .shutdown = (beforeStop ((Engine.new max).after ops)).stopLoop.2 := by
      simp [answer, Engine.step, shutdown_eq _ hr]
    rw [this]
    have hbl : (beforeStop ((Engine.new max).after ops)).loop = ((Engine.new max).after ops).loop := rfl
    unfold Engine.stopLoop
    rw [hbl]
    cases hl : ((Engine.new max).after ops).loop with
    | idle n => dsimp only; split <;> simp
    | _ => simp

theorem gone_stays (max : Nat) (ops ops' : List Op) (h : ((Engine.new max).after ops).loop = .gone) :
    ((Engine.new max).after (ops ++ ops')).loop = .gone := by
  refine snoc_induction (P := fun ops' => ((Engine.new max).after (ops ++ ops')).loop = .gone)
    (by simpa using h) ?_ ops'
  intro os op ih
  rw [← List.append_assoc, after_snoc, (step_loop _ op (running_unmade max _)).1, ih]
  cases op <;> rfl

/-- C118: a shutdown succeeds once. After that the engine is over: whatever is called in between,
it can neither be shut down nor started again. -/
theorem C118_shutdown_once (max : Nat) (ops ops' : List Op) (h : answer max ops .shutdown = .ok) :
    answer max (ops ++ .shutdown :: ops') .shutdown = .failed .internal ∧
    answer max (ops ++ .shutdown :: ops') .start = .failed .alreadyRunning := by
  have hd := (C118_shutdown_succeeds max ops).1 h
  have hl := (loop_inv max ops).2.2 hd
  have hb : Begun ops := by
    obtain ⟨pre, post, rfl, ⟨a, s, b, rfl, hs, _, _⟩, _⟩ := hd
    rcases hs with rfl | rfl
    · left; simp
    · right; simp
  have hgone : ((Engine.new max).after (ops ++ [.shutdown])).loop = .gone := by
    rw [after_snoc, (step_loop _ _ (running_unmade max _)).1, hl]
  have hall : ((Engine.new max).after (ops ++ .shutdown :: ops')).loop = .gone := by
    have := gone_stays max _ ops' hgone
    rwa [List.append_assoc] at this
  have hb' : Begun (ops ++ .shutdown :: ops') := by
    rcases hb with hb | hb
    · left; simp [hb]
    · right; simp [hb]
  have hr := (plain_inv max (ops ++ .shutdown :: ops')).2.1.2 hb'
  refine ⟨?_, (C118_start_once max _).2 hb'⟩
  have : answer max (ops ++ .shutdown :: ops') .shutdown =
      (beforeStop ((Engine.new max).after (ops ++ .shutdown :: ops'))).stopLoop.2 := by
    simp [answer, Engine.step, shutdown_eq _ hr]
  rw [this]
  have hbl : (beforeStop ((Engine.new max).after (ops ++ .shutdown :: ops'))).loop = .gone := hall
  unfold Engine.stopLoop
  rw [hbl]

/-- C118: closing a zone closes its tabs, then stops its fetcher if the I/O thread runs, then lets
its cookie store save and forget its cookies, and then reports it, in this order. -/
theorem C118_close_order_partial (max : Nat) (ops : List Op) (hd : Distinct max ops) (hh : Heard ops)
    (z : Nat) (st : Option Nat) (ho : (z, st) ∈ openZones (story max ops)) :
    ∃ stop release report : List Effect, effects max (ops ++ [.closeZone z]) =
        effects max ops ++ [.closeTabs z] ++ stop ++ release ++ report ∧
      (IoRunning ops → stop = [.stopZoneIo z]) ∧ (¬ IoRunning ops → stop = []) ∧
      (∀ s, st = some s → release = [.release s z]) ∧ (st = none → release = []) ∧
      (0 < listening ops → report = [.closed z]) ∧ (listening ops = 0 → report = []) := by
  have hs := (exact_inv max ops hd hh).2
  have hn := (open_inv max ops hd).1
  have hio := io_inv max ops
  have hls := (plain_inv max ops).2.2.2
  have hlook : look ((Engine.new max).after ops).stores z = st := by
    rw [hs]
    unfold openIds at hn
    revert hn ho
    generalize openZones (story max ops) = zs
    intro ho hn
    induction zs with
    | nil => simp at ho
    | cons x xs ih =>
      obtain ⟨a, b⟩ := x
      simp only [List.map_cons, List.nodup_cons] at hn
      have hnone : ∀ ys : List (Nat × Option Nat), z ∉ ys.map Prod.fst →
          look (ys.filterMap (fun p => p.2.map (fun s => (p.1, s)))) z = none := by
        intro ys
        induction ys with
        | nil => intro _; rfl
        | cons y ys ih =>
          intro hy
          obtain ⟨c, d⟩ := y
          simp only [List.map_cons, List.mem_cons, not_or] at hy
          cases d with
          | none => simpa using ih hy.2
          | some d => simpa [look, Ne.symm hy.1] using ih hy.2
      rcases List.mem_cons.1 ho with h | h
      · simp only [Prod.mk.injEq] at h
        obtain ⟨rfl, rfl⟩ := h
        cases st with
        | none => simpa using hnone xs hn.1
        | some s => simp [look]
      · have hne : a ≠ z := by
          intro hc; subst hc
          exact hn.1 (List.mem_map_of_mem h)
        cases b with
        | none => simpa using ih h hn.2
        | some s => simpa [look, hne] using ih h hn.2
  refine ⟨if ((Engine.new max).after ops).io then [.stopZoneIo z] else [],
    (st.map (fun s => [Effect.release s z])).getD [],
    if listening ops = 0 then [] else [.closed z], ?_, ?_, ?_, ?_, ?_, ?_, ?_⟩
  · show ((Engine.new max).after (ops ++ [.closeZone z])).done = _
    rw [after_snoc]
    show (((Engine.new max).after ops).closeZone z).1.done = _
    unfold effects
    rw [← hls]
    generalize ((Engine.new max).after ops) = e at *
    simp only [Engine.closeZone]
    cases hc : e.io <;> simp only [if_true, if_false, Bool.false_eq_true, hlook] <;>
      cases st <;> dsimp only <;> split <;> simp_all
  · intro h; rw [hio.2 h]; rfl
  · intro h
    cases hc : ((Engine.new max).after ops).io with
    | true => exact absurd (hio.1 hc) h
    | false => rfl
  · rintro s rfl; rfl
  · rintro rfl; rfl
  · intro h; rw [if_neg (by omega)]
  · intro h; rw [if_pos h]

/-- The hypotheses are met: an engine with two zones, whose loop is polled. -/
example : let ops : List Op := [.subscribe, .start, .drive, .createZone 1 (some 7),
      .createZone 2 (some 8)]
    openZones (story 3 ops) = [(1, some 7), (2, some 8)] ∧
    effects 3 (ops ++ [.closeZone 1, .shutdown]) =
      [.startIo, .created 1, .created 2, .closeTabs 1, .stopZoneIo 1, .release 7 1, .closed 1,
       .persist 8, .stopIo] ∧
    answer 3 (ops ++ [.closeZone 1]) .shutdown = .ok := by decide

/-- Full property: `shutdown` returns. Violated: as long as the run-loop future that `start` hands
out is not polled, `shutdown` waits for it without a time limit. -/
theorem C118_unpolled_violated (max : Nat) (ops : List Op) (h : Waiting ops) :
    answer max ops .shutdown = .waits := by
  have hl := (loop_inv max ops).1.2 h
  have hb : Begun ops := by
    obtain ⟨a, s, b, rfl, hs, _, _⟩ := h
    rcases hs with rfl | rfl
    · left; simp
    · right; simp
  have hr := (plain_inv max ops).2.1.2 hb
  have : answer max ops .shutdown = (beforeStop ((Engine.new max).after ops)).stopLoop.2 := by
    simp [answer, Engine.step, shutdown_eq _ hr]
  rw [this]
  have hbl : (beforeStop ((Engine.new max).after ops)).loop = .idle 0 := hl
  unfold Engine.stopLoop
  rw [hbl]
  simp [capacity]

example : Waiting [.subscribe, .start, .createZone 1 none] :=
  ⟨[.subscribe], .start, [.createZone 1 none], rfl, Or.inl rfl, by simp [Begun], by simp⟩

/-- Full property: after a shutdown no zone is given. Violated: zones are given as before, with an
I/O thread that is gone, and nothing stops their tabs or saves their cookies. -/
theorem C118_zone_after_shutdown_violated :
    answer 3 [.subscribe, .start, .drive] .shutdown = .ok ∧
    answer 3 [.subscribe, .start, .drive, .shutdown] (.createZone 1 (some 7)) = .created 1 := by
  decide

/-- Full property: a shutdown saves the cookies of every open zone. Violated when two zones have
the same id: only the last store is known, and after one of the zones is closed none is. -/
theorem C118_same_id_unsaved_violated :
    let ops : List Op := [.subscribe, .start, .drive, .createZone 1 (some 7), .createZone 1 (some 8)]
    (1, some 7) ∈ openZones (story 3 ops) ∧
    Effect.persist 7 ∉ effects 3 (ops ++ [.shutdown]) := by decide

end Verif.Zones
