import Verif.Zones.Spec

/-! # The engine and its zones: invariants of every history -/

namespace Verif.Zones

theorem after_snoc (e : Engine) (ops : List Op) (op : Op) :
    e.after (ops ++ [op]) = ((e.after ops).step op).1 := by
  simp [Engine.after]

theorem trace_snoc (e : Engine) (ops : List Op) (op : Op) :
    e.trace (ops ++ [op]) = e.trace ops ++ [(op, ((e.after ops).step op).2)] := by
  induction ops generalizing e with
  | nil => simp [Engine.trace, Engine.after]
  | cons o os ih =>
    simp only [List.cons_append, Engine.trace, ih]
    rfl

theorem openZones_snoc (t : List (Op × Answer)) (x : Op × Answer) :
    openZones (t ++ [x]) = openStep (openZones t) x := by
  simp [openZones]

theorem story_snoc (max : Nat) (ops : List Op) (op : Op) :
    story max (ops ++ [op]) = story max ops ++ [(op, answer max ops op)] :=
  trace_snoc _ _ _

/-- A property of all histories, by taking away the last call. -/
theorem snoc_induction {P : List Op → Prop} (hnil : P [])
    (hsnoc : ∀ ops op, P ops → P (ops ++ [op])) : ∀ ops, P ops := by
  intro ops
  induction h : ops.length generalizing ops with
  | zero =>
    have : ops = [] := List.length_eq_zero_iff.1 h
    rw [this]; exact hnil
  | succ n ih =>
    have hne : ops ≠ [] := by intro hc; rw [hc] at h; simp at h
    rw [← List.dropLast_concat_getLast hne]
    exact hsnoc _ _ (ih _ (by simp [h]))

/-! ## What a call leaves alone -/

theorem stopLoop_keeps (e : Engine) : e.stopLoop.1.maxZones = e.maxZones ∧
    e.stopLoop.1.running = e.running ∧ e.stopLoop.1.ioTx = e.ioTx ∧
    e.stopLoop.1.zones = e.zones ∧ e.stopLoop.1.stores = e.stores ∧
    e.stopLoop.1.listeners = e.listeners ∧ e.stopLoop.1.io = e.io ∧ e.stopLoop.1.done = e.done := by
  unfold Engine.stopLoop
  split <;> (try split) <;> simp

/-- The engine just before `shutdown` talks to the run loop. -/
def beforeStop (e : Engine) : Engine :=
  { e with io := false,
           done := e.done ++ e.stores.map (fun p => Effect.persist p.2) ++
             (if e.io then [.stopIo] else []) }

theorem shutdown_eq (e : Engine) (h : e.running = true) : e.shutdown = (beforeStop e).stopLoop := by
  obtain ⟨mz, rn, lp, io, tx, zs, ss, ls, dn⟩ := e
  have h' : rn = true := h
  subst h'
  cases io <;> simp [Engine.shutdown, Engine.flush, beforeStop]

theorem shutdown_not (e : Engine) (h : e.running = false) :
    e.shutdown = (e, .failed .notRunning) := by
  unfold Engine.shutdown
  rw [h]; rfl

/-- What every call does to the parts of the engine that are easy to follow. -/
theorem step_plain (e : Engine) (op : Op) :
    (e.step op).1.maxZones = e.maxZones ∧
    ((e.step op).1.running = (e.running || (decide (op = .start) || decide (op = .run)))) ∧
    ((e.step op).1.ioTx = (e.ioTx || (!e.running && decide (op = .start)))) ∧
    (e.step op).1.listeners = (match op with
      | .subscribe => e.listeners + 1
      | .unsubscribe => e.listeners - 1
      | _ => e.listeners) := by
  cases op with
  | start =>
    simp only [Engine.step, Engine.start]
    cases hr : e.running with
    | true => simp [hr]
    | false =>
      cases hl : e.loop <;> simp [Engine.run]
  | run =>
    simp only [Engine.step, Engine.run]
    cases hl : e.loop <;> simp
  | drive =>
    simp only [Engine.step, Engine.drive]
    split <;> simp
  | dropLoop =>
    simp only [Engine.step, Engine.dropLoop]
    split <;> simp
  | subscribe => simp [Engine.step]
  | unsubscribe => simp [Engine.step]
  | createZone id st =>
    simp only [Engine.step, Engine.createZone]
    split
    · simp
    · split
      · simp
      · cases st <;> dsimp only <;> split <;> simp
  | closeZone id =>
    simp only [Engine.step, Engine.closeZone]
    cases e.io <;> simp only [if_true, if_false, Bool.false_eq_true] <;>
      cases look e.stores id <;> dsimp only <;> split <;> simp
  | dropZone id => simp [Engine.step]
  | shutdown =>
    simp only [Engine.step]
    cases hr : e.running with
    | true =>
      rw [shutdown_eq e hr]
      obtain ⟨a, b, c, _, _, f, _, _⟩ := stopLoop_keeps (beforeStop e)
      refine ⟨a, ?_, ?_, f⟩
      · rw [b]; exact hr.trans (by simp)
      · rw [c]; simp [beforeStop]
    | false => rw [shutdown_not e hr]; simp [hr]

theorem listening_snoc (ops : List Op) (op : Op) : listening (ops ++ [op]) = (match op with
      | .subscribe => listening ops + 1
      | .unsubscribe => listening ops - 1
      | _ => listening ops) := by
  simp only [listening, List.foldl_append, List.foldl_cons, List.foldl_nil]
  cases op <;> rfl

theorem begun_snoc (ops : List Op) (op : Op) :
    Begun (ops ++ [op]) ↔ Begun ops ∨ op = .start ∨ op = .run := by
  simp only [Begun, List.mem_append, List.mem_singleton, eq_comm (a := op)]
  constructor
  · rintro ((h | h) | (h | h)) <;> simp [h]
  · rintro ((h | h) | (h | h)) <;> simp [h]

theorem ioStarted_snoc (ops : List Op) (op : Op) :
    IoStarted (ops ++ [op]) ↔ IoStarted ops ∨ (¬ Begun ops ∧ op = .start) := by
  constructor
  · rintro ⟨pre, post, h, hb⟩
    rcases List.eq_nil_or_concat post with rfl | ⟨post', x, rfl⟩
    · have := List.append_inj' h rfl
      obtain ⟨h1, h2⟩ := this
      right
      subst h1
      exact ⟨hb, by simpa using h2⟩
    · left
      have h' : ops ++ [op] = (pre ++ .start :: post') ++ [x] := by simpa using h
      exact ⟨pre, post', (List.append_inj' h' rfl).1, hb⟩
  · rintro (⟨pre, post, rfl, hb⟩ | ⟨hb, rfl⟩)
    · exact ⟨pre, post ++ [op], by simp, hb⟩
    · exact ⟨ops, [], by simp, hb⟩

/-- The parts of the engine that depend only on the calls. -/
theorem plain_inv (max : Nat) (ops : List Op) :
    ((Engine.new max).after ops).maxZones = max ∧
    (((Engine.new max).after ops).running = true ↔ Begun ops) ∧
    (((Engine.new max).after ops).ioTx = true ↔ IoStarted ops) ∧
    ((Engine.new max).after ops).listeners = listening ops := by
  refine snoc_induction (P := fun ops => ((Engine.new max).after ops).maxZones = max ∧
    (((Engine.new max).after ops).running = true ↔ Begun ops) ∧
    (((Engine.new max).after ops).ioTx = true ↔ IoStarted ops) ∧
    ((Engine.new max).after ops).listeners = listening ops) ?_ ?_ ops
  · refine ⟨rfl, ?_, ?_, rfl⟩
    · simp [Engine.after, Engine.new, Begun]
    · simp [Engine.after, Engine.new, IoStarted]
  · intro ops op ⟨h1, h2, h3, h4⟩
    rw [after_snoc]
    obtain ⟨k1, k2, k3, k4⟩ := step_plain ((Engine.new max).after ops) op
    refine ⟨k1.trans h1, ?_, ?_, ?_⟩
    · rw [k2, begun_snoc, ← h2]
      simp [Bool.or_eq_true]
    · rw [k3, ioStarted_snoc, ← h3, ← h2]
      simp [Bool.or_eq_true, Bool.and_eq_true]
    · rw [k4, listening_snoc, h4]

/-! ## Zones -/

/-- What every call does to the zones. -/
theorem step_zones (e : Engine) (op : Op) :
    (e.step op).1.zones = (match op with
      | .createZone id _ =>
        if e.maxZones ≤ e.zones.length then e.zones
        else if e.ioTx = true then put e.zones id else e.zones
      | .closeZone id => drop e.zones id
      | _ => e.zones) ∧
    (e.step op).1.stores = (match op with
      | .createZone id st =>
        if e.maxZones ≤ e.zones.length then e.stores
        else if e.ioTx = true then (match st with
          | some s => insert e.stores id s
          | none => e.stores) else e.stores
      | .closeZone id => (match look e.stores id with
          | some _ => erase e.stores id
          | none => e.stores)
      | _ => e.stores) := by
  cases op with
  | start =>
    simp only [Engine.step, Engine.start]
    cases hr : e.running with
    | true => simp
    | false => cases hl : e.loop <;> simp [Engine.run]
  | run =>
    simp only [Engine.step, Engine.run]
    cases hl : e.loop <;> simp
  | drive =>
    simp only [Engine.step, Engine.drive]
    split <;> simp
  | dropLoop =>
    simp only [Engine.step, Engine.dropLoop]
    split <;> simp
  | subscribe => simp [Engine.step]
  | unsubscribe => simp [Engine.step]
  | createZone id st =>
    simp only [Engine.step, Engine.createZone, ge_iff_le]
    by_cases h1 : e.maxZones ≤ e.zones.length
    · simp [h1]
    · cases h2 : e.ioTx with
      | false => simp [h1]
      | true =>
        simp only [h1, if_false, Bool.not_true, Bool.false_eq_true]
        cases st <;> dsimp only <;> split <;> simp
  | closeZone id =>
    simp only [Engine.step, Engine.closeZone]
    cases e.io <;> simp only [if_true, if_false, Bool.false_eq_true] <;>
      cases look e.stores id <;> dsimp only <;> split <;> simp
  | dropZone id => simp [Engine.step]
  | shutdown =>
    simp only [Engine.step]
    cases hr : e.running with
    | true =>
      rw [shutdown_eq e hr]
      obtain ⟨_, _, _, d, g, _, _, _⟩ := stopLoop_keeps (beforeStop e)
      exact ⟨d, g⟩
    | false => rw [shutdown_not e hr]; simp

/-- How a request for a zone is answered. -/
theorem create_answer (e : Engine) (id : Nat) (st : Option Nat) :
    (e.createZone id st).2 =
      if e.maxZones ≤ e.zones.length then .failed .zoneLimit
      else if e.ioTx = true then (if e.listeners = 0 then .failed .internal else .created id)
      else .failed .ioNotStarted := by
  simp only [Engine.createZone, ge_iff_le]
  by_cases h1 : e.maxZones ≤ e.zones.length
  · simp [h1]
  · cases h2 : e.ioTx with
    | false => simp [h1]
    | true =>
      simp only [h1, if_false, Bool.not_true, Bool.false_eq_true, if_true]
      cases st <;> dsimp only <;> split <;> simp [*]

theorem put_length (ks : List Nat) (k : Nat) : (put ks k).length ≤ ks.length + 1 := by
  unfold put; split <;> simp

theorem drop_length (ks : List Nat) (k : Nat) : (drop ks k).length ≤ ks.length :=
  List.length_filter_le _ _

theorem mem_put {ks : List Nat} {k x : Nat} : x ∈ put ks k ↔ x ∈ ks ∨ x = k := by
  unfold put
  split
  · constructor
    · exact Or.inl
    · rintro (h | rfl) <;> assumption
  · simp

/-- The map of zones never has more entries than allowed. -/
theorem zones_le (max : Nat) (ops : List Op) : ((Engine.new max).after ops).zones.length ≤ max := by
  refine snoc_induction (P := fun ops => ((Engine.new max).after ops).zones.length ≤ max) ?_ ?_ ops
  · simp [Engine.after, Engine.new]
  · intro ops op ih
    rw [after_snoc, (step_zones _ op).1]
    have hm := (plain_inv max ops).1
    cases op with
    | createZone id st =>
      dsimp only
      split
      · exact ih
      · split
        · have := put_length ((Engine.new max).after ops).zones id
          omega
        · exact ih
    | closeZone id => exact Nat.le_trans (drop_length _ _) ih
    | _ => exact ih

theorem openStep_ids (zs : List (Nat × Option Nat)) (op : Op) (a : Answer) :
    (openStep zs (op, a)).map Prod.fst = (match op, a with
      | .createZone _ _, .created z => zs.map Prod.fst ++ [z]
      | .closeZone z, _ => drop (zs.map Prod.fst) z
      | _, _ => zs.map Prod.fst) := by
  cases op <;> cases a <;> simp [openStep, drop, List.filter_map, Function.comp_def]

theorem distinct_of_snoc {max : Nat} {ops : List Op} {op : Op} (h : Distinct max (ops ++ [op])) :
    Distinct max ops := by
  intro pre id st post he
  exact h pre id st (post ++ [op]) (by rw [he]; simp)

theorem heard_of_snoc {ops : List Op} {op : Op} (h : Heard (ops ++ [op])) : Heard ops := by
  intro pre id st post he
  exact h pre id st (post ++ [op]) (by rw [he]; simp)

theorem openIds_snoc (max : Nat) (ops : List Op) (op : Op) :
    openIds (story max (ops ++ [op])) = (match op, answer max ops op with
      | .createZone _ _, .created z => openIds (story max ops) ++ [z]
      | .closeZone z, _ => drop (openIds (story max ops)) z
      | _, _ => openIds (story max ops)) := by
  unfold openIds
  rw [story_snoc, openZones_snoc, openStep_ids]

/-- The open zones are all in the engine's map, each once. -/
theorem open_inv (max : Nat) (ops : List Op) (hd : Distinct max ops) :
    (openIds (story max ops)).Nodup ∧
    ∀ z ∈ openIds (story max ops), z ∈ ((Engine.new max).after ops).zones := by
  revert hd
  refine snoc_induction (P := fun ops => Distinct max ops → (openIds (story max ops)).Nodup ∧
    ∀ z ∈ openIds (story max ops), z ∈ ((Engine.new max).after ops).zones) ?_ ?_ ops
  · intro _; simp [story, Engine.trace, openIds, openZones]
  · intro ops op ih hd
    obtain ⟨h1, h2⟩ := ih (distinct_of_snoc hd)
    rw [openIds_snoc, after_snoc, (step_zones _ op).1]
    cases op with
    | createZone id st =>
      have hnew : id ∉ openIds (story max ops) := hd ops id st [] rfl
      have ha : answer max ops (.createZone id st) = _ :=
        create_answer ((Engine.new max).after ops) id st
      rw [ha]
      by_cases k1 : ((Engine.new max).after ops).maxZones ≤ ((Engine.new max).after ops).zones.length
      · simp only [if_pos k1]
        exact ⟨h1, h2⟩
      · simp only [if_neg k1]
        by_cases k2 : ((Engine.new max).after ops).ioTx = true
        · simp only [if_pos k2]
          by_cases k3 : ((Engine.new max).after ops).listeners = 0
          · simp only [if_pos k3]
            exact ⟨h1, fun z hz => mem_put.2 (Or.inl (h2 z hz))⟩
          · simp only [if_neg k3]
            refine ⟨List.nodup_append.2 ⟨h1, by simp, ?_⟩, ?_⟩
            · intro a hmem b hb
              simp only [List.mem_singleton] at hb
              subst hb
              intro hc; subst hc; exact hnew hmem
            · intro z hz
              rcases List.mem_append.1 hz with hz | hz
              · exact mem_put.2 (Or.inl (h2 z hz))
              · exact mem_put.2 (Or.inr (by simpa using hz))
        · simp only [if_neg k2]
          exact ⟨h1, h2⟩
    | closeZone id =>
      dsimp only
      refine ⟨h1.filter _, ?_⟩
      intro z hz
      simp only [drop, List.mem_filter] at hz ⊢
      exact ⟨h2 z hz.1, hz.2⟩
    | _ => exact ⟨h1, h2⟩

/-- With an own id for every zone and somebody listening, the engine's maps are the open zones. -/
theorem exact_inv (max : Nat) (ops : List Op) (hd : Distinct max ops) (hh : Heard ops) :
    ((Engine.new max).after ops).zones = openIds (story max ops) ∧
    ((Engine.new max).after ops).stores =
      (openZones (story max ops)).filterMap (fun p => p.2.map (fun s => (p.1, s))) := by
  revert hd hh
  refine snoc_induction (P := fun ops => Distinct max ops → Heard ops →
    ((Engine.new max).after ops).zones = openIds (story max ops) ∧
    ((Engine.new max).after ops).stores =
      (openZones (story max ops)).filterMap (fun p => p.2.map (fun s => (p.1, s)))) ?_ ?_ ops
  · intro _ _; exact ⟨rfl, rfl⟩
  · intro ops op ih hd hh
    obtain ⟨h1, h2⟩ := ih (distinct_of_snoc hd) (heard_of_snoc hh)
    rw [openIds_snoc, after_snoc, (step_zones _ op).1, (step_zones _ op).2, story_snoc,
      openZones_snoc]
    cases op with
    | createZone id st =>
      have hnew : id ∉ openIds (story max ops) := hd ops id st [] rfl
      have hl : 0 < listening ops := hh ops id st [] rfl
      have ha : answer max ops (.createZone id st) = _ :=
        create_answer ((Engine.new max).after ops) id st
      rw [ha, (plain_inv max ops).2.2.2]
      by_cases k1 : ((Engine.new max).after ops).maxZones ≤ ((Engine.new max).after ops).zones.length
      · simp only [if_pos k1]
        exact ⟨h1, h2⟩
      · simp only [if_neg k1]
        by_cases k2 : ((Engine.new max).after ops).ioTx = true
        · simp only [if_pos k2, if_neg (Nat.ne_of_gt hl)]
          refine ⟨?_, ?_⟩
          · rw [h1]; exact if_neg hnew
          · simp only [openStep, List.filterMap_append]
            cases st with
            | none => simp [h2]
            | some s =>
              simp only [insert, h2]
              congr 1
              apply List.filter_eq_self.2
              intro x hx
              obtain ⟨q, hq, hq'⟩ := List.mem_filterMap.1 hx
              cases hs : q.2 with
              | none => simp [hs] at hq'
              | some s' =>
                simp only [hs, Option.map_some, Option.some.injEq] at hq'
                subst hq'
                simp only [ne_eq, decide_not, Bool.not_eq_eq_eq_not, Bool.not_true,
                  decide_eq_false_iff_not]
                intro hc
                exact hnew (hc ▸ List.mem_map_of_mem hq)
        · simp only [if_neg k2]
          exact ⟨h1, h2⟩
    | closeZone id =>
      dsimp only
      refine ⟨by rw [h1], ?_⟩
      have key : ∀ zs : List (Nat × Option Nat),
          erase (zs.filterMap (fun p => p.2.map (fun s => (p.1, s)))) id =
          (zs.filter (fun p => decide (p.1 ≠ id))).filterMap (fun p => p.2.map (fun s => (p.1, s))) := by
        intro zs
        induction zs with
        | nil => rfl
        | cons x xs ih =>
          obtain ⟨a, b⟩ := x
          cases b with
          | none =>
            by_cases hx : a = id <;> simp_all [erase]
          | some s =>
            by_cases hx : a = id <;> simp_all [erase]
      have hlook : ∀ m : List (Nat × Nat), look m id = none → erase m id = m := by
        intro m
        induction m with
        | nil => intro _; rfl
        | cons x xs ih =>
          obtain ⟨a, b⟩ := x
          intro h
          by_cases hx : a = id
          · simp [look, hx] at h
          · have h' : look xs id = none := by simpa [look, hx] using h
            have h'' := ih h'
            simp only [erase] at h'' ⊢
            rw [List.filter_cons, h'']
            simp [hx]
      show _ = (((openZones (story max ops)).filter (fun p => decide (p.1 ≠ id)))).filterMap _
      rw [← key, ← h2]
      cases hl : look ((Engine.new max).after ops).stores id with
      | none => exact (hlook _ hl).symm
      | some s => rfl
    | _ => exact ⟨h1, h2⟩

/-! ## The run loop -/

/-- What every call does to the run loop and to the I/O thread. -/
theorem step_loop (e : Engine) (op : Op) (hu : e.running = false → e.loop = .unmade) :
    (e.step op).1.loop = (match op, e.loop with
      | .start, .unmade => if e.running then .unmade else .idle 0
      | .run, .unmade => .idle 0
      | .drive, .idle 0 => .driven
      | .drive, .idle _ => .gone
      | .dropLoop, .unmade => .unmade
      | .dropLoop, _ => .gone
      | .shutdown, .driven => .gone
      | .shutdown, .idle n => if n < capacity then .idle (n + 1) else .idle n
      | _, l => l) ∧
    (e.step op).1.io = (match op with
      | .start => e.io || !e.running
      | .shutdown => e.io && !e.running
      | _ => e.io) := by
  cases op with
  | start =>
    simp only [Engine.step, Engine.start]
    cases hr : e.running with
    | true => cases hl : e.loop <;> simp [hl]
    | false => simp [Engine.run, hu hr]
  | run =>
    simp only [Engine.step, Engine.run]
    cases hl : e.loop <;> simp
  | drive =>
    simp only [Engine.step, Engine.drive]
    cases hl : e.loop with
    | idle n => cases n <;> simp
    | _ => simp [hl]
  | dropLoop =>
    simp only [Engine.step, Engine.dropLoop]
    cases hl : e.loop <;> simp [hl]
  | subscribe => simp [Engine.step]
  | unsubscribe => simp [Engine.step]
  | createZone id st =>
    simp only [Engine.step, Engine.createZone]
    split
    · simp
    · split
      · simp
      · cases st <;> dsimp only <;> split <;> simp
  | closeZone id =>
    simp only [Engine.step, Engine.closeZone]
    cases hio : e.io <;> simp only [if_true, if_false, Bool.false_eq_true] <;>
      cases look e.stores id <;> dsimp only <;> split <;> simp
  | dropZone id => simp [Engine.step]
  | shutdown =>
    simp only [Engine.step]
    cases hr : e.running with
    | true =>
      rw [shutdown_eq e hr]
      have hio := (stopLoop_keeps (beforeStop e)).2.2.2.2.2.2.1
      refine ⟨?_, by rw [hio]; simp [beforeStop]⟩
      have hbl : (beforeStop e).loop = e.loop := rfl
      unfold Engine.stopLoop
      rw [hbl]
      cases hl : e.loop with
      | idle n =>
        dsimp only
        split
        · rfl
        · exact hbl.trans hl
      | _ => first | rfl | exact hbl.trans hl
    | false =>
      rw [shutdown_not e hr, hu hr]
      simp

/-- The run loop is still to be made exactly when the engine was not started. -/
theorem unmade_inv (max : Nat) (ops : List Op) :
    ((Engine.new max).after ops).loop = .unmade ↔ ¬ Begun ops := by
  refine snoc_induction (P := fun ops => ((Engine.new max).after ops).loop = .unmade ↔ ¬ Begun ops)
    ?_ ?_ ops
  · simp [Engine.after, Engine.new, Begun]
  · intro ops op ih
    have hrun := (plain_inv max ops).2.1
    have hu : ((Engine.new max).after ops).running = false →
        ((Engine.new max).after ops).loop = .unmade := by
      intro h
      refine ih.2 ?_
      rw [← hrun, h]; simp
    rw [after_snoc, (step_loop _ op hu).1, begun_snoc]
    by_cases hb : Begun ops
    · have hl : ((Engine.new max).after ops).loop ≠ .unmade := fun h => ih.1 h hb
      simp only [hb, true_or, not_true_eq_false, iff_false]
      cases op <;> cases h : ((Engine.new max).after ops).loop <;>
        first
          | exact absurd h hl
          | (simp; done)
          | (dsimp only; split <;> simp; done)
          | (rename_i n; cases n <;> simp)
    · have hl := ih.2 hb
      have hr : ((Engine.new max).after ops).running = false := by
        cases h : ((Engine.new max).after ops).running with
        | true => exact absurd (hrun.1 h) hb
        | false => rfl
      rw [hl, hr]
      cases op <;> simp [hb]

theorem running_unmade (max : Nat) (ops : List Op) :
    ((Engine.new max).after ops).running = false → ((Engine.new max).after ops).loop = .unmade := by
  intro h
  refine (unmade_inv max ops).2 ?_
  rw [← (plain_inv max ops).2.1, h]; simp

theorem waiting_snoc (ops : List Op) (op : Op) :
    Waiting (ops ++ [op]) ↔
      (¬ Begun ops ∧ (op = .start ∨ op = .run)) ∨
      (Waiting ops ∧ op ≠ .drive ∧ op ≠ .dropLoop ∧ op ≠ .shutdown) := by
  constructor
  · rintro ⟨pre, s, post, h, hs, hb, hp⟩
    rcases List.eq_nil_or_concat post with rfl | ⟨post', x, rfl⟩
    · obtain ⟨h1, h2⟩ := List.append_inj' h rfl
      left
      subst h1
      have : op = s := by simpa using h2
      subst this
      exact ⟨hb, hs⟩
    · right
      have h' : ops ++ [op] = (pre ++ s :: post') ++ [x] := by simpa using h
      obtain ⟨h1, h2⟩ := List.append_inj' h' rfl
      have : op = x := by simpa using h2
      subst this
      refine ⟨⟨pre, s, post', h1, hs, hb, fun o ho => hp o (by simp [ho])⟩, hp op (by simp)⟩
  · rintro (⟨hb, hs⟩ | ⟨⟨pre, s, post, rfl, hs, hb, hp⟩, hx⟩)
    · exact ⟨ops, op, [], by simp, hs, hb, by simp⟩
    · refine ⟨pre, s, post ++ [op], by simp, hs, hb, ?_⟩
      intro o ho
      rcases List.mem_append.1 ho with ho | ho
      · exact hp o ho
      · have : o = op := by simpa using ho
        subst this; exact hx

theorem driven_snoc (ops : List Op) (op : Op) :
    Driven (ops ++ [op]) ↔
      (Waiting ops ∧ op = .drive) ∨ (Driven ops ∧ op ≠ .dropLoop ∧ op ≠ .shutdown) := by
  constructor
  · rintro ⟨pre, post, h, hw, hp⟩
    rcases List.eq_nil_or_concat post with rfl | ⟨post', x, rfl⟩
    · obtain ⟨h1, h2⟩ := List.append_inj' h rfl
      left
      subst h1
      exact ⟨hw, by simpa using h2⟩
    · right
      have h' : ops ++ [op] = (pre ++ .drive :: post') ++ [x] := by simpa using h
      obtain ⟨h1, h2⟩ := List.append_inj' h' rfl
      have : op = x := by simpa using h2
      subst this
      exact ⟨⟨pre, post', h1, hw, fun o ho => hp o (by simp [ho])⟩, hp op (by simp)⟩
  · rintro (⟨hw, rfl⟩ | ⟨⟨pre, post, rfl, hw, hp⟩, hx⟩)
    · exact ⟨ops, [], by simp, hw, by simp⟩
    · refine ⟨pre, post ++ [op], by simp, hw, ?_⟩
      intro o ho
      rcases List.mem_append.1 ho with ho | ho
      · exact hp o ho
      · have : o = op := by simpa using ho
        subst this; exact hx

/-- Where the run loop is, told from the calls. -/
theorem loop_inv (max : Nat) (ops : List Op) :
    (((Engine.new max).after ops).loop = .idle 0 ↔ Waiting ops) ∧
    (((Engine.new max).after ops).loop = .driven ↔ Driven ops) := by
  refine snoc_induction (P := fun ops => (((Engine.new max).after ops).loop = .idle 0 ↔ Waiting ops) ∧
    (((Engine.new max).after ops).loop = .driven ↔ Driven ops)) ?_ ?_ ops
  · constructor
    · simp [Engine.after, Engine.new, Waiting]
    · simp [Engine.after, Engine.new, Driven]
  · intro ops op ⟨ih1, ih2⟩
    have hu := unmade_inv max ops
    have hrun := (plain_inv max ops).2.1
    rw [after_snoc, (step_loop _ op (running_unmade max ops)).1, waiting_snoc, driven_snoc, ← ih1,
      ← ih2, ← hu]
    have hr : ((Engine.new max).after ops).loop = .unmade →
        ((Engine.new max).after ops).running = false := by
      intro h
      cases hr : ((Engine.new max).after ops).running with
      | true => exact absurd (hrun.1 hr) (hu.1 h)
      | false => rfl
    cases hl : ((Engine.new max).after ops).loop with
    | unmade => cases op <;> simp [hr hl]
    | idle n =>
      cases n with
      | zero => cases op <;> simp [capacity]
      | succ n =>
        cases op <;> simp
        split <;> simp
    | driven => cases op <;> simp
    | gone => cases op <;> simp

theorem ioRunning_snoc (ops : List Op) (op : Op) :
    IoRunning (ops ++ [op]) ↔
      (¬ Begun ops ∧ op = .start) ∨ (IoRunning ops ∧ op ≠ .shutdown) := by
  constructor
  · rintro ⟨pre, post, h, hb, hp⟩
    rcases List.eq_nil_or_concat post with rfl | ⟨post', x, rfl⟩
    · obtain ⟨h1, h2⟩ := List.append_inj' h rfl
      left
      subst h1
      exact ⟨hb, by simpa using h2⟩
    · right
      have h' : ops ++ [op] = (pre ++ .start :: post') ++ [x] := by simpa using h
      obtain ⟨h1, h2⟩ := List.append_inj' h' rfl
      have : op = x := by simpa using h2
      subst this
      refine ⟨⟨pre, post', h1, hb, fun ho => hp (by simp [ho])⟩, fun hc => hp (by simp [hc])⟩
  · rintro (⟨hb, rfl⟩ | ⟨⟨pre, post, rfl, hb, hp⟩, hx⟩)
    · exact ⟨ops, [], by simp, hb, by simp⟩
    · refine ⟨pre, post ++ [op], by simp, hb, ?_⟩
      intro ho
      rcases List.mem_append.1 ho with ho | ho
      · exact hp ho
      · exact hx (List.mem_singleton.1 ho).symm

/-- The engine has its I/O thread from the start to the first shutdown. -/
theorem io_inv (max : Nat) (ops : List Op) :
    ((Engine.new max).after ops).io = true ↔ IoRunning ops := by
  refine snoc_induction (P := fun ops => ((Engine.new max).after ops).io = true ↔ IoRunning ops)
    ?_ ?_ ops
  · simp [Engine.after, Engine.new, IoRunning]
  · intro ops op ih
    have hrun := (plain_inv max ops).2.1
    rw [after_snoc, (step_loop _ op (running_unmade max ops)).2, ioRunning_snoc, ← ih, ← hrun]
    have hb : IoRunning ops → Begun ops := by
      rintro ⟨pre, post, rfl, _, _⟩
      left; simp
    have hb' : ((Engine.new max).after ops).io = true → ((Engine.new max).after ops).running = true :=
      fun h => hrun.2 (hb (ih.1 h))
    cases hio : ((Engine.new max).after ops).io <;>
      cases hrr : ((Engine.new max).after ops).running <;> cases op <;> simp_all

end Verif.Zones
