import Verif.Storage.Lemmas
set_option linter.unusedVariables false
/-! # Web storage: the properties (C19-C22) -/
namespace Verif.Storage

/-! ## C19 -/

/-- Every history: what is read through an area is what the specification's map for that identity holds
(`Spec`: one map per identity; session areas exist from their first lookup until their tab is dropped).
For identities whose text forms cannot be confused; local areas kept in memory need no such condition. -/
theorem C19_isolated_maps (useSql : Bool) (rows : List (RowKey × Str)) (hrows : (rows.map (·.1)).Nodup)
    (ops : List Op) (hops : ∀ op ∈ ops, ∀ i, op.asks = some i → Safe useSql i) (h : Nat) (i : Ident)
    (hi : ((Spec.init (stored useSql rows)).run ops).handles[h]? = some i) (k : Str) :
    getItem (run (init useSql rows) ops) h k = ((Spec.init (stored useSql rows)).run ops).val i k :=
  getItem_eq (rel_run (rel_init useSql rows hrows) ops hops) hi k

/-- `keys` lists each stored key once, exactly those that can be read, and `len` counts them. -/
theorem C19_keys_len (useSql : Bool) (rows : List (RowKey × Str)) (hrows : (rows.map (·.1)).Nodup)
    (ops : List Op) (h : Nat) :
    let st := run (init useSql rows) ops
    (keys st h).Nodup ∧ (∀ k, k ∈ keys st h ↔ (getItem st h k).isSome = true) ∧ len st h = (keys st h).length := by
  have hg := good_run (good_init useSql rows hrows) ops
  simp only [keys, getItem, len]
  cases (run (init useSql rows) ops).handles[h]? with
  | none => simp
  | some a => simpa using keys_spec hg a.inner

/-- handles and specification handles are the same list of identities -/
theorem C19_handles (useSql : Bool) (rows : List (RowKey × Str)) (hrows : (rows.map (·.1)).Nodup)
    (ops : List Op) (hops : ∀ op ∈ ops, ∀ i, op.asks = some i → Safe useSql i) :
    ((Spec.init (stored useSql rows)).run ops).handles =
      (run (init useSql rows) ops).handles.map (·.ident) :=
  (rel_run (rel_init useSql rows hrows) ops hops).handles

def exHttps (s : String) : Origin := .tuple "https".toList (.name s.toList) 443

theorem exHttps_tuple (s : String) (h : ':' ∉ s.toList ∧ '[' ∉ s.toList) : (exHttps s).Tuple :=
  ⟨by decide, h⟩

def exOps : List Op :=
  [.localFor 1 (.topLevel (exHttps "a.com")) (exHttps "b.com"), .localFor 1 .none (exHttps "b.com"),
   .sessionFor 1 7 .none (exHttps "b.com"), .set 0 "k".toList "v".toList, .set 2 "k".toList "w".toList,
   .localFor 1 (.topLevel (exHttps "a.com")) (exHttps "b.com")]

/-- plain identities satisfy the hypothesis, with either store -/
example : ∀ useSql, ∀ op ∈ exOps, ∀ i, op.asks = some i → Safe useSql i := by
  intro u op ho i hi
  simp only [exOps, List.mem_cons, List.not_mem_nil, or_false] at ho
  have ha := exHttps_tuple "a.com" (by decide)
  have hb := exHttps_tuple "b.com" (by decide)
  rcases ho with rfl | rfl | rfl | rfl | rfl | rfl <;> simp only [Op.asks, Option.some.injEq, reduceCtorEq] at hi <;>
    subst hi
  · exact Or.inr ⟨ha, hb⟩
  · exact Or.inr ⟨trivial, hb⟩
  · exact ⟨trivial, hb⟩
  · exact Or.inr ⟨ha, hb⟩

example : getItem (run (init true []) exOps) 3 "k".toList = some "v".toList ∧
    getItem (run (init true []) exOps) 1 "k".toList = none ∧
    getItem (run (init false []) exOps) 3 "k".toList = some "v".toList ∧
    getItem (run (init false []) exOps) 1 "k".toList = none ∧
    getItem (run (init false []) exOps) 2 "k".toList = some "w".toList := by decide

/-! ## C20 -/

/-- no session map of the tab exists -/
def NoTab (st : St) (z t : Nat) : Prop := ∀ e ∈ st.sess, ¬ (e.1.1 = z ∧ e.1.2.1 = t)

theorem noTab_change {st : St} {z t : Nat} (h : NoTab st z t) (a : Inner) (k v : Str) :
    NoTab (innerSet st a k v) z t ∧ NoTab (innerRemove st a k) z t ∧ NoTab (innerClear st a) z t := by
  cases a with
  | mem => exact ⟨h, h, h⟩
  | sql => exact ⟨h, h, h⟩
  | sess sk =>
    refine ⟨?_, ?_, ?_⟩ <;>
    · intro e he
      obtain ⟨e1, e2⟩ := e
      rcases mem_modify he with h1 | ⟨v', h1, _⟩
      · exact h _ h1
      · have := h _ h1
        exact this

theorem noTab_step {st : St} {z t : Nat} (h : NoTab st z t) (op : Op)
    (hop : ∀ p o, op ≠ .sessionFor z t p o) : NoTab (step st op) z t := by
  cases op with
  | localFor z' p o =>
    have : (localFor st z' p o).sess = st.sess := by
      unfold localFor; split
      · rfl
      · split <;> rfl
    intro e he
    simp only [step] at he
    rw [this] at he
    exact h e he
  | sessionFor z' t' p o =>
    intro e he
    simp only [step, sessionFor] at he
    split at he
    · exact h e he
    · rcases List.mem_append.mp he with he | he
      · exact h e he
      · simp at he
        subst he
        rintro ⟨h1, h2⟩
        simp only [sessKey] at h1 h2
        subst h1; subst h2
        exact hop p o rfl
  | dropTab z' t' => exact fun e he => h e (List.mem_filter.mp he).1
  | set n k v =>
    simp only [step, withArea]; split
    · exact h
    · exact (noTab_change h _ k v).1
  | remove n k =>
    simp only [step, withArea]; split
    · exact h
    · exact (noTab_change h _ k []).2.1
  | clear n =>
    simp only [step, withArea]; split
    · exact h
    · exact (noTab_change h _ [] []).2.2

theorem noTab_get {st : St} {z t : Nat} (h : NoTab st z t) (p o : Str) (k : Str) :
    innerGet st (.sess (z, t, p, o)) k = none := by
  simp only [innerGet]
  cases hl : lookup st.sess (z, t, p, o) with
  | none => rfl
  | some m => exact absurd ⟨rfl, rfl⟩ (h _ (mem_of_lookup hl))

/-- After a tab is dropped, and until a page of that tab asks for session storage again, nothing can be
read through any of its session areas, whatever is written through old handles in between. Holds for all
identities, in any history. -/
theorem C20_dropped_is_gone (useSql : Bool) (rows : List (RowKey × Str)) (hrows : (rows.map (·.1)).Nodup)
    (before after : List Op) (z t : Nat) (hafter : ∀ op ∈ after, ∀ p o, op ≠ .sessionFor z t p o)
    (h : Nat) (p : Part) (o : Origin) (a : Area) (k : Str)
    (ha : (run (init useSql rows) (before ++ [.dropTab z t] ++ after)).handles[h]? = some a)
    (hi : a.ident = .ses z t p o) :
    getItem (run (init useSql rows) (before ++ [.dropTab z t] ++ after)) h k = none := by
  have hg := good_run (good_init useSql rows hrows) (before ++ [.dropTab z t] ++ after)
  have h0 : NoTab (run (init useSql rows) (before ++ [.dropTab z t])) z t := by
    simp only [run, List.foldl_append, List.foldl_cons, List.foldl_nil, step]
    intro e he
    have := (List.mem_filter.mp he).2
    simp only [decide_eq_true_eq] at this
    rintro ⟨h1, h2⟩
    rcases this with h3 | h3
    · exact h3 h1
    · exact h3 h2
  have h1 : ∀ (ops : List Op) (st : St), NoTab st z t → (∀ op ∈ ops, ∀ p o, op ≠ .sessionFor z t p o) →
      NoTab (run st ops) z t := by
    intro ops
    induction ops with
    | nil => intro st h _; exact h
    | cons op ops ih =>
      intro st h hops
      exact ih _ (noTab_step h op (hops op (by simp))) (fun op' h' => hops op' (by simp [h']))
  have h2 := h1 after _ h0 hafter
  have hrun : run (init useSql rows) (before ++ [.dropTab z t] ++ after) =
      run (run (init useSql rows) (before ++ [.dropTab z t])) after := by simp [run, List.foldl_append]
  rw [← hrun] at h2
  have haddr := hg.addr a (List.mem_of_getElem? ha)
  rw [hi] at haddr
  simp only [addrOf, Option.some.injEq] at haddr
  simp only [getItem, ha, Option.bind_some, ← haddr, sessKey]
  exact noTab_get h2 _ _ k

/-- Dropping a tab leaves what every other area reads as it was: local areas, and session areas of other
tabs or zones. -/
theorem C20_others_unchanged (useSql : Bool) (rows : List (RowKey × Str)) (hrows : (rows.map (·.1)).Nodup)
    (ops : List Op) (z t : Nat) (h : Nat) (a : Area) (k : Str)
    (ha : (run (init useSql rows) ops).handles[h]? = some a)
    (hi : ∀ p o, a.ident ≠ .ses z t p o) :
    getItem (step (run (init useSql rows) ops) (.dropTab z t)) h k = getItem (run (init useSql rows) ops) h k := by
  have hg := good_run (good_init useSql rows hrows) ops
  generalize run (init useSql rows) ops = st at *
  have haddr := hg.addr a (List.mem_of_getElem? ha)
  have ha' : (step st (.dropTab z t)).handles[h]? = some a := ha
  simp only [getItem, ha, ha', Option.bind_some]
  cases hin : a.inner with
  | mem => rfl
  | sql => rfl
  | sess sk =>
    rw [hin] at haddr
    cases hid : a.ident with
    | loc z' p' o' =>
      rw [hid] at haddr
      simp only [addrOf] at haddr
      split at haddr
      · simp at haddr
      · obtain ⟨x, _, hx⟩ := Option.map_eq_some_iff.mp haddr; simp at hx
    | ses z' t' p' o' =>
      rw [hid] at haddr
      simp only [addrOf, Option.some.injEq, Inner.sess.injEq] at haddr
      subst haddr
      simp only [innerGet, step, dropTab]
      have := lookup_filter st.sess (fun sk => decide (sk.1 ≠ z ∨ sk.2.1 ≠ t)) (sessKey z' t' p' o')
      rw [this, if_pos]
      apply decide_eq_true
      simp only [sessKey]
      by_contra hc
      apply hi p' o'
      have h1 : z' = z := by by_contra h1; exact hc (Or.inl h1)
      have h2 : t' = t := by by_contra h2; exact hc (Or.inr h2)
      rw [hid, h1, h2]

/-- a history with a handle kept across the drop -/
example : getItem (run (init false []) (exOps ++ [.dropTab 1 7] ++ [.set 2 "k".toList "again".toList])) 2 "k".toList = none ∧
    getItem (run (init false []) (exOps ++ [.dropTab 1 8])) 2 "k".toList = some "w".toList ∧
    (∀ op ∈ [Op.set 2 "k".toList "again".toList], ∀ p o, op ≠ .sessionFor 1 7 p o) := by
  refine ⟨by decide, by decide, ?_⟩
  intro op ho p o
  simp at ho
  subst ho
  simp

/-! ## C21 -/

/-- One call, one event, with the identity it was made for, the value readable just before as old value
and the requested value as new value. -/
theorem C21_set_event (st : St) (h : Nat) (a : Area) (ha : st.handles[h]? = some a) (k v : Str) :
    (step st (.set h k v)).events = st.events ++ [⟨a.ident, some k, getItem st h k, some v⟩] ∧
    (step st (.remove h k)).events = st.events ++ [⟨a.ident, some k, getItem st h k, none⟩] ∧
    (step st (.clear h)).events = st.events ++ [⟨a.ident, none, none, none⟩] := by
  refine ⟨?_, ?_, ?_⟩ <;> simp only [step, withArea, ha, getItem, Option.bind_some]
  · simp only [areaSet, publish]; cases a.inner <;> rfl
  · simp only [areaRemove, publish]; cases a.inner <;> rfl
  · simp only [areaClear, publish]; cases a.inner <;> rfl

/-- lookups and drops publish nothing -/
theorem C21_quiet (st : St) (op : Op) (h : op.asks ≠ none ∨ ∃ z t, op = .dropTab z t) :
    (step st op).events = st.events := by
  cases op with
  | localFor z p o =>
    simp only [step, localFor]; split
    · rfl
    · split <;> rfl
  | sessionFor => rfl
  | dropTab => rfl
  | set => simp [Op.asks] at h
  | remove => simp [Op.asks] at h
  | clear => simp [Op.asks] at h

/-- replaying the events of every existing area gives its contents -/
def Replays (st : St) (sp : Spec) : Prop :=
  ∀ i, (sp.exist i = true → replay (eventsOf st i) = sp.val i)

theorem eventsOf_append (st st' : St) (e : Event) (h : st'.events = st.events ++ [e]) (i : Ident) :
    eventsOf st' i = eventsOf st i ++ (if e.ident = i then [e] else []) := by
  simp only [eventsOf, h, List.filter_append]
  by_cases he : e.ident = i <;> simp [he]

theorem replay_append (es : List Event) (e : Event) : replay (es ++ [e]) = replayOne (replay es) e := by
  simp [replay, List.foldl_append]

theorem replays_change {st st' : St} {sp : Spec} (hr : Replays st sp) {n : Nat} {i : Ident}
    (hn : sp.handles[n]? = some i) (e : Event) (hei : e.ident = i) (hev : st'.events = st.events ++ [e])
    (f : (Str → Option Str) → Str → Option Str) (hf : ∀ m, replayOne m e = f m) :
    Replays st' (sp.change n f) := by
  have hch : sp.change n f =
      { sp with val := fun j => if j = i ∧ sp.exist i = true then f (sp.val j) else sp.val j } := by
    simp [Spec.change, hn]
  rw [hch]
  intro j hj
  simp only at hj ⊢
  rw [eventsOf_append st st' e hev j, hei]
  by_cases hij : i = j
  · subst hij
    rw [if_pos rfl, if_pos ⟨rfl, hj⟩, replay_append, hr i hj, hf]
  · rw [if_neg hij, if_neg (fun e => hij e.1.symm), List.append_nil]
    exact hr j hj

/-- The events published for an area, replayed in order on an empty map, give exactly what is read
through any handle of that area — in every history of non-overlapping calls that starts with nothing
stored and in which no tab is dropped.
Missing: the area after its tab was dropped (`C21_dropped_violated`), calls that change nothing
(`C21_noop_violated`), overlapping calls (`C21_concurrent_violated`). -/
theorem C21_replay_partial (useSql : Bool) (ops : List Op)
    (hops : ∀ op ∈ ops, ∀ i, op.asks = some i → Safe useSql i) (hdrop : ∀ op ∈ ops, ∀ z t, op ≠ .dropTab z t)
    (h : Nat) (a : Area) (ha : (run (init useSql []) ops).handles[h]? = some a) :
    ∀ k, replay (eventsOf (run (init useSql []) ops) a.ident) k = getItem (run (init useSql []) ops) h k := by
  have hsp0 : ∀ i k, (Spec.init (stored useSql [])).val i k = none := by
    intro i k
    cases i with
    | loc => simp only [Spec.init, stored]; split <;> rfl
    | ses => rfl
  have key : ∀ (ops : List Op) (st : St) (sp : Spec), Rel st sp → Replays st sp → (∀ i, sp.exist i = false → replay (eventsOf st i) = sp.val i) →
      (∀ a ∈ st.handles, sp.exist a.ident = true) →
      (∀ op ∈ ops, ∀ i, op.asks = some i → Safe st.useSql i) → (∀ op ∈ ops, ∀ z t, op ≠ .dropTab z t) →
      Rel (run st ops) (sp.run ops) ∧ Replays (run st ops) (sp.run ops) ∧
        (∀ a ∈ (run st ops).handles, (sp.run ops).exist a.ident = true) := by
    intro ops
    induction ops with
    | nil => intro st sp h1 h2 _ h3 _ _; exact ⟨h1, h2, h3⟩
    | cons op ops ih =>
      intro st sp hrel hrep hrep' hex hsafe hnd
      obtain ⟨hrel', hus⟩ := rel_step hrel op (hsafe op (by simp))
      refine ih (step st op) (sp.step op) hrel' ?_ ?_ ?_ (fun o ho => by rw [hus]; exact hsafe o (by simp [ho]))
        (fun o ho => hnd o (by simp [ho]))
      · -- replays
        cases op with
        | localFor z p o =>
          have := C21_quiet st (.localFor z p o) (Or.inl (by simp [Op.asks]))
          intro i hi
          have h' := hrep i hi
          simpa [eventsOf, this, Spec.step] using h'
        | sessionFor z t p o =>
          intro i hi
          show replay (eventsOf st i) = sp.val i
          cases hx : sp.exist i with
          | true => exact hrep i hx
          | false => exact hrep' i hx
        | dropTab z t => exact absurd rfl (hnd _ (by simp) z t)
        | set n k v =>
          cases hn : st.handles[n]? with
          | none =>
            have h1 : sp.handles[n]? = none := by rw [hrel.handles]; simp [hn]
            simpa [step, withArea, hn, Spec.step, Spec.change, h1] using hrep
          | some a =>
            have h1 : sp.handles[n]? = some a.ident := by rw [hrel.handles]; simp [hn]
            exact replays_change hrep h1 _ rfl (C21_set_event st n a hn k v).1 _ (fun m => rfl)
        | remove n k =>
          cases hn : st.handles[n]? with
          | none =>
            have h1 : sp.handles[n]? = none := by rw [hrel.handles]; simp [hn]
            simpa [step, withArea, hn, Spec.step, Spec.change, h1] using hrep
          | some a =>
            have h1 : sp.handles[n]? = some a.ident := by rw [hrel.handles]; simp [hn]
            exact replays_change hrep h1 _ rfl (C21_set_event st n a hn k []).2.1 _ (fun m => rfl)
        | clear n =>
          cases hn : st.handles[n]? with
          | none =>
            have h1 : sp.handles[n]? = none := by rw [hrel.handles]; simp [hn]
            simpa [step, withArea, hn, Spec.step, Spec.change, h1] using hrep
          | some a =>
            have h1 : sp.handles[n]? = some a.ident := by rw [hrel.handles]; simp [hn]
            exact replays_change hrep h1 _ rfl (C21_set_event st n a hn [] []).2.2 _ (fun m => rfl)
      · -- areas that do not exist yet have no events
        have hquiet : ∀ (n : Nat) (a : Area) (e : Event) (st' : St) (f : (Str → Option Str) → Str → Option Str),
            st.handles[n]? = some a → e.ident = a.ident → st'.events = st.events ++ [e] →
            ∀ i, (sp.change n f).exist i = false → replay (eventsOf st' i) = (sp.change n f).val i := by
          intro n a e st' f hn hei hev i hi
          have h1 : sp.handles[n]? = some a.ident := by rw [hrel.handles]; simp [hn]
          have hch : sp.change n f =
              { sp with val := fun j => if j = a.ident ∧ sp.exist a.ident = true then f (sp.val j) else sp.val j } := by
            simp [Spec.change, h1]
          rw [hch] at hi ⊢
          simp only at hi ⊢
          have hne : a.ident ≠ i := by
            rintro rfl
            rw [hex a (List.mem_of_getElem? hn)] at hi
            simp at hi
          rw [eventsOf_append st st' e hev i, hei, if_neg hne, if_neg (fun e => hne e.1.symm), List.append_nil]
          exact hrep' i hi
        cases op with
        | localFor z p o =>
          have := C21_quiet st (.localFor z p o) (Or.inl (by simp [Op.asks]))
          intro i hi
          have h' := hrep' i hi
          simpa [eventsOf, this, Spec.step] using h'
        | sessionFor z t p o =>
          intro i hi
          show replay (eventsOf st i) = sp.val i
          simp only [Spec.step] at hi
          split at hi
          · simp at hi
          · exact hrep' i hi
        | dropTab z t => exact absurd rfl (hnd _ (by simp) z t)
        | set n k v =>
          cases hn : st.handles[n]? with
          | none =>
            have h1 : sp.handles[n]? = none := by rw [hrel.handles]; simp [hn]
            simpa [step, withArea, hn, Spec.step, Spec.change, h1] using hrep'
          | some a => exact hquiet n a _ _ _ hn rfl (C21_set_event st n a hn k v).1
        | remove n k =>
          cases hn : st.handles[n]? with
          | none =>
            have h1 : sp.handles[n]? = none := by rw [hrel.handles]; simp [hn]
            simpa [step, withArea, hn, Spec.step, Spec.change, h1] using hrep'
          | some a => exact hquiet n a _ _ _ hn rfl (C21_set_event st n a hn k []).2.1
        | clear n =>
          cases hn : st.handles[n]? with
          | none =>
            have h1 : sp.handles[n]? = none := by rw [hrel.handles]; simp [hn]
            simpa [step, withArea, hn, Spec.step, Spec.change, h1] using hrep'
          | some a => exact hquiet n a _ _ _ hn rfl (C21_set_event st n a hn [] []).2.2
      · -- handed out areas exist
        have hch : ∀ n f, (sp.change n f).exist = sp.exist := by
          intro n f
          unfold Spec.change; split <;> rfl
        intro a ha
        have hm : a.ident ∈ (sp.step op).handles := by rw [hrel'.handles]; exact List.mem_map_of_mem ha
        have hold : ∀ i ∈ sp.handles, sp.exist i = true := by
          intro i hi
          rw [hrel.handles] at hi
          obtain ⟨b, hb, rfl⟩ := List.mem_map.mp hi
          exact hex b hb
        have hch' : ∀ n f, (sp.change n f).handles = sp.handles := by
          intro n f
          unfold Spec.change; split <;> rfl
        cases op with
        | localFor z p o =>
          simp only [Spec.step] at hm ⊢
          rcases List.mem_append.mp hm with hm | hm
          · exact hold _ hm
          · simp at hm; rw [hm]; exact hrel.locExist z p o
        | sessionFor z t p o =>
          simp only [Spec.step] at hm ⊢
          split
          · rfl
          · rename_i hne
            rcases List.mem_append.mp hm with hm | hm
            · exact hold _ hm
            · simp at hm; exact absurd hm hne
        | dropTab z t => exact absurd rfl (hnd _ (by simp) z t)
        | set n k v =>
          simp only [Spec.step, hch, hch'] at hm ⊢
          exact hold _ hm
        | remove n k =>
          simp only [Spec.step, hch, hch'] at hm ⊢
          exact hold _ hm
        | clear n =>
          simp only [Spec.step, hch, hch'] at hm ⊢
          exact hold _ hm
  have hinit : ∀ i, replay (eventsOf (init useSql []) i) = (Spec.init (stored useSql [])).val i := by
    intro i; funext k; rw [hsp0]; rfl
  obtain ⟨h1, h2, h3⟩ := key ops (init useSql []) (Spec.init (stored useSql []))
    (rel_init useSql [] (by simp [Nk])) (fun i _ => hinit i) (fun i _ => hinit i) (by simp [init]) hops hdrop
  intro k
  have hh : ((Spec.init (stored useSql [])).run ops).handles[h]? = some a.ident := by
    rw [h1.handles]; simp [ha]
  rw [h2 a.ident (h3 a (List.mem_of_getElem? ha)), getItem_eq h1 hh]

example : (run (init true []) exOps).events.length = 2 ∧ (∀ op ∈ exOps, ∀ z t, op ≠ .dropTab z t) := by
  refine ⟨by decide, ?_⟩
  intro op ho z t
  simp only [exOps, List.mem_cons, List.not_mem_nil, or_false] at ho
  rcases ho with rfl | rfl | rfl | rfl | rfl | rfl <;> simp

/-- Removing a key that is not there, clearing an empty area and setting a key to the value it has are
all reported as changes. -/
theorem C21_noop_violated :
    let st := run (init false []) [.localFor 1 .none (exHttps "b.com"), .set 0 "k".toList "v".toList]
    (step st (.remove 0 "x".toList)).events.length = st.events.length + 1 ∧
    (step st (.set 0 "k".toList "v".toList)).events.length = st.events.length + 1 := by decide

/-- A write through a handle kept across the drop of its tab stores nothing but is announced. -/
theorem C21_dropped_violated :
    let st := run (init false []) [.sessionFor 1 7 .none (exHttps "b.com"), .dropTab 1 7, .set 0 "k".toList "v".toList]
    getItem st 0 "k".toList = none ∧
      replay (eventsOf st (.ses 1 7 .none (exHttps "b.com"))) "k".toList = some "v".toList := by decide

/-- Two pages of one area write the same key at the same time: the events arrive in the other order than
the writes, and both claim the key was absent before. -/
theorem C21_concurrent_violated :
    let c : Conc := { st := run (init false []) [.localFor 1 .none (exHttps "b.com")], threads := [.idle, .idle] }
    let c' := crun c [.start 0 0 "k".toList "1".toList, .start 1 0 "k".toList "2".toList, .run 0, .run 1, .run 1, .run 0]
    getItem c'.st 0 "k".toList = some "2".toList ∧
      replay (eventsOf c'.st (.loc 1 .none (exHttps "b.com"))) "k".toList = some "1".toList ∧
      c'.st.events.map (·.old) = [none, none] := by decide

/-! ## C22 -/

/-- Changes made through one area are never seen through an area of another identity: for the in-memory
local store always, for the session and SQLite stores when the text forms cannot be confused.
Missing: opaque origins and misleading custom partition names, see the `_violated` theorems. -/
theorem C22_isolation_partial (useSql : Bool) (rows : List (RowKey × Str)) (hrows : (rows.map (·.1)).Nodup)
    (ops : List Op) (h h' : Nat) (a a' : Area)
    (ha : (run (init useSql rows) ops).handles[h]? = some a) (ha' : (run (init useSql rows) ops).handles[h']? = some a')
    (hs : Safe (run (init useSql rows) ops).useSql a.ident) (hs' : Safe (run (init useSql rows) ops).useSql a'.ident)
    (hne : a.ident ≠ a'.ident) (k v k' : Str) :
    let st := run (init useSql rows) ops
    getItem (step st (.set h k v)) h' k' = getItem st h' k' ∧
    getItem (step st (.remove h k)) h' k' = getItem st h' k' ∧
    getItem (step st (.clear h)) h' k' = getItem st h' k' := by
  have hg := good_run (good_init useSql rows hrows) ops
  intro st
  have hna : a'.inner ≠ a.inner := by
    intro e
    have h1 := hg.addr a (List.mem_of_getElem? ha)
    have h2 := hg.addr a' (List.mem_of_getElem? ha')
    rw [e] at h2
    exact hne (addr_inj hg hs hs' h1 h2)
  have hh : ∀ (st' : St), SameFrame st st' → (∀ k, innerGet st' a'.inner k = innerGet st a'.inner k) →
      getItem st' h' k' = getItem st h' k' := by
    intro st' hf hget
    simp only [getItem, hf.handles]
    have : st.handles[h']? = some a' := ha'
    rw [this]
    exact hget k'
  have hst : st.handles[h]? = some a := ha
  simp only [step, withArea, hst]
  refine ⟨hh _ ((frame_set st _ k v).trans (frame_publish _ _)) ?_, hh _ ((frame_remove st _ k).trans (frame_publish _ _)) ?_,
    hh _ ((frame_clear st _).trans (frame_publish _ _)) ?_⟩ <;> intro k''
  · rw [areaSet, innerGet_publish, (innerGet_ne hna k k'' v).1]
  · rw [areaRemove, innerGet_publish, (innerGet_ne hna k k'' v).2.1]
  · rw [areaClear, innerGet_publish, (innerGet_ne hna k k'' v).2.2]

/-- the in-memory local store needs no condition at all -/
theorem C22_memory_local (z : Nat) (p : Part) (o : Origin) : Safe false (.loc z p o) := Or.inl rfl

/-- ordinary identities: every partition key built by the engine (`compute_partition_key`) from URLs with
tuple origins is plain -/
theorem C22_engine_keys_plain (o top : Origin) (ho : o.Tuple) (ht : top.Tuple) (useSql : Bool) (z t : Nat) :
    Safe useSql (.loc z (.topLevel top) o) ∧ Safe useSql (.loc z .none o) ∧
    Safe useSql (.ses z t (.topLevel top) o) ∧ Safe useSql (.ses z t .none o) :=
  ⟨Or.inr ⟨ht, ho⟩, Or.inr ⟨trivial, ho⟩, ⟨ht, ho⟩, ⟨trivial, ho⟩⟩

example : (exHttps "a.com").Tuple := exHttps_tuple _ (by decide)

/-- two different partition keys, one map: the empty custom name and no partition -/
theorem C22_empty_custom_violated :
    let st := run (init true []) [.localFor 1 .none (exHttps "b.com"), .localFor 1 (.custom []) (exHttps "b.com"),
      .set 0 "k".toList "secret".toList]
    getItem st 1 "k".toList = some "secret".toList ∧ Part.none ≠ .custom [] := by decide

/-- a custom name that spells another site's partition -/
theorem C22_custom_top_violated :
    let st := run (init false []) [.sessionFor 1 7 (.topLevel (exHttps "bank.com")) (exHttps "b.com"),
      .sessionFor 1 7 (.custom "top:https://bank.com".toList) (exHttps "b.com"), .set 0 "k".toList "secret".toList]
    getItem st 1 "k".toList = some "secret".toList := by decide

/-- all opaque origins (`data:`, `file:` and sandboxed documents) share one session area and one
SQLite area -/
theorem C22_opaque_violated :
    let st := run (init true []) [.localFor 1 .none (.opaq 1), .localFor 1 .none (.opaq 2),
      .sessionFor 1 7 .none (.opaq 3), .sessionFor 1 7 .none (.opaq 4),
      .set 0 "k".toList "secret".toList, .set 2 "k".toList "hidden".toList]
    getItem st 1 "k".toList = some "secret".toList ∧ getItem st 3 "k".toList = some "hidden".toList := by decide

end Verif.Storage
