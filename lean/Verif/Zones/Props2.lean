import Verif.Zones.Lemmas

/-! # C117, C119 and C121: the tabs of a zone, and what they share -/

namespace Verif.Zones

/-! ## C117 -/

theorem tabs_after_snoc (z : Tabs) (ops : List TabOp) (op : TabOp) :
    z.after (ops ++ [op]) = ((z.after ops).step op).1 := by
  simp [Tabs.after]

theorem tabs_trace_snoc (z : Tabs) (ops : List TabOp) (op : TabOp) :
    tabStory z (ops ++ [op]) = tabStory z ops ++ [(op, tabAnswer z ops op)] := by
  unfold tabStory tabAnswer
  induction ops generalizing z with
  | nil => simp [Tabs.trace, Tabs.after]
  | cons o os ih =>
    simp only [List.cons_append, Tabs.trace, ih]
    rfl

theorem openTabs_snoc (z : Tabs) (ops : List TabOp) (op : TabOp) :
    openTabs (tabStory z (ops ++ [op])) =
      tabStep (openTabs (tabStory z ops)) (op, tabAnswer z ops op) := by
  simp [openTabs, tabs_trace_snoc]

theorem tab_snoc_induction {P : List TabOp → Prop} (hnil : P [])
    (hsnoc : ∀ ops op, P ops → P (ops ++ [op])) : ∀ ops, P ops := by
  intro ops
  induction h : ops.length generalizing ops with
  | zero =>
    have : ops = [] := List.length_eq_zero_iff.1 h
    rw [this]; exact hnil
  | succ n ih =>
    have hne : ops ≠ [] := by intro hc; rw [hc] at h; simp at h
    rw [← List.dropLast_concat_getLast hne]
    exact hsnoc _ _ (ih _ (by simp [h]))

theorem settingNow_snoc (n : Nat) (ops : List TabOp) (op : TabOp) :
    settingNow n (ops ++ [op]) = (match op with | .set m => m | _ => settingNow n ops) := by
  simp only [settingNow, List.foldl_append, List.foldl_cons, List.foldl_nil]
  cases op <;> rfl

/-- The limits follow from the calls. -/
theorem tabs_plain (zm s : Nat) (ops : List TabOp) :
    ((Tabs.mk zm s []).after ops).zoneMax = zm ∧
    ((Tabs.mk zm s []).after ops).setting = settingNow s ops := by
  refine tab_snoc_induction (P := fun ops => ((Tabs.mk zm s []).after ops).zoneMax = zm ∧
    ((Tabs.mk zm s []).after ops).setting = settingNow s ops) ⟨rfl, rfl⟩ ?_ ops
  intro ops op ⟨h1, h2⟩
  rw [tabs_after_snoc, settingNow_snoc]
  cases op with
  | create id st =>
    simp only [Tabs.step, Tabs.create]
    split
    · exact ⟨h1, h2⟩
    · cases st <;> exact ⟨h1, h2⟩
  | close id =>
    simp only [Tabs.step, Tabs.close]
    split <;> exact ⟨h1, h2⟩
  | ends id => exact ⟨h1, h2⟩
  | set n => exact ⟨h1, rfl⟩

/-- Every tab in the list has an id that was drawn for it. -/
theorem tabs_drawn (zm s : Nat) (ops : List TabOp) :
    ∀ x ∈ ((Tabs.mk zm s []).after ops).tabs, x ∈ drawn ops := by
  refine tab_snoc_induction (P := fun ops => ∀ x ∈ ((Tabs.mk zm s []).after ops).tabs, x ∈ drawn ops)
    (by simp [Tabs.after]) ?_ ops
  intro ops op ih x hx
  rw [tabs_after_snoc] at hx
  have hmono : ∀ y, y ∈ drawn ops → y ∈ drawn (ops ++ [op]) := by
    intro y hy; simp only [drawn, List.filterMap_append, List.mem_append]; exact Or.inl hy
  cases op with
  | create id st =>
    simp only [Tabs.step, Tabs.create] at hx
    split at hx
    · exact hmono x (ih x hx)
    · cases st with
      | unspawned => exact hmono x (ih x hx)
      | lost =>
        rcases mem_put.1 hx with hx | hx
        · exact hmono x (ih x hx)
        · subst hx; simp [drawn]
      | fine =>
        rcases mem_put.1 hx with hx | hx
        · exact hmono x (ih x hx)
        · subst hx; simp [drawn]
  | close id =>
    simp only [Tabs.step, Tabs.close] at hx
    split at hx
    · exact hmono x (ih x (List.mem_filter.1 hx).1)
    · exact hmono x (ih x hx)
  | ends id => exact hmono x (ih x hx)
  | set n => exact hmono x (ih x hx)

theorem drop_absent {ks : List Nat} {k : Nat} (h : k ∉ ks) : drop ks k = ks := by
  apply List.filter_eq_self.2
  intro x hx
  simp only [ne_eq, decide_not, Bool.not_eq_eq_eq_not, Bool.not_true, decide_eq_false_iff_not]
  intro hc; subst hc; exact h hx

/-- C117: `list_tabs` lists exactly the tabs that were given out and not closed, each once, and
never more than the zone allows. -/
theorem C117_tabs_listed_partial (zm s : Nat) (ops : List TabOp) (hid : (drawn ops).Nodup)
    (hf : NoneLost ops) :
    ((Tabs.mk zm s []).after ops).list = openTabs (tabStory ⟨zm, s, []⟩ ops) ∧
    ((Tabs.mk zm s []).after ops).list.Nodup ∧
    ((Tabs.mk zm s []).after ops).list.length ≤ zm := by
  revert hid hf
  refine tab_snoc_induction (P := fun ops => (drawn ops).Nodup → NoneLost ops →
    ((Tabs.mk zm s []).after ops).list = openTabs (tabStory ⟨zm, s, []⟩ ops) ∧
    ((Tabs.mk zm s []).after ops).list.Nodup ∧
    ((Tabs.mk zm s []).after ops).list.length ≤ zm) ?_ ?_ ops
  · intro _ _; exact ⟨rfl, List.nodup_nil, Nat.zero_le _⟩
  · intro ops op ih hid hf
    have hid' : (drawn ops).Nodup := by
      simp only [drawn, List.filterMap_append] at hid
      exact (List.nodup_append.1 hid).1
    have hf' : NoneLost ops := fun id h => hf id (by simp [h])
    obtain ⟨h1, h2, h3⟩ := ih hid' hf'
    have hdr := tabs_drawn zm s ops
    obtain ⟨p1, p2⟩ := tabs_plain zm s ops
    unfold Tabs.list at h1 h2 h3 ⊢
    rw [openTabs_snoc, tabs_after_snoc]
    unfold tabAnswer
    cases op with
    | create id st =>
      have hnew : id ∉ ((Tabs.mk zm s []).after ops).tabs := by
        intro hc
        have h4 := hdr id hc
        simp only [drawn, List.filterMap_append] at hid
        exact (List.nodup_append.1 hid).2.2 id h4 id (by simp) rfl
      simp only [Tabs.step, Tabs.create]
      by_cases hlim : ((Tabs.mk zm s []).after ops).tabs.length ≥ ((Tabs.mk zm s []).after ops).limit
      · simp only [if_pos hlim]; exact ⟨h1, h2, h3⟩
      · simp only [if_neg hlim]
        cases st with
        | unspawned => exact ⟨h1, h2, h3⟩
        | lost => exact absurd (by simp) (hf id)
        | fine =>
          have hput : put ((Tabs.mk zm s []).after ops).tabs id =
              ((Tabs.mk zm s []).after ops).tabs ++ [id] := if_neg hnew
          simp only [hput, tabStep]
          refine ⟨by rw [h1], ?_, ?_⟩
          · refine List.nodup_append.2 ⟨h2, by simp, ?_⟩
            intro a ha b hb hc
            have : b = id := by simpa using hb
            subst this; subst hc; exact hnew ha
          · have : ((Tabs.mk zm s []).after ops).limit ≤ zm := by
              unfold Tabs.limit; rw [p1]; exact Nat.min_le_right _ _
            simp only [List.length_append, List.length_singleton]
            omega
    | close id =>
      simp only [Tabs.step, Tabs.close]
      have hdrop : (openTabs (tabStory ⟨zm, s, []⟩ ops)).filter (fun x => decide (x ≠ id)) =
          drop ((Tabs.mk zm s []).after ops).tabs id := by rw [h1]; rfl
      by_cases hm : id ∈ ((Tabs.mk zm s []).after ops).tabs
      · simp only [if_pos hm, tabStep, hdrop]
        refine ⟨trivial, h2.filter _, Nat.le_trans (drop_length _ _) h3⟩
      · simp only [if_neg hm, tabStep, hdrop, drop_absent hm]
        exact ⟨trivial, h2, h3⟩
    | ends id => exact ⟨h1, h2, h3⟩
    | set n => exact ⟨h1, h2, h3⟩

/-- C117: a new tab is refused for the limit exactly when as many tabs are listed as the setting
and the zone both allow at that moment, and otherwise given if its worker can be started. -/
theorem C117_tab_given_partial (zm s : Nat) (ops : List TabOp) (hid : (drawn ops).Nodup)
    (hf : NoneLost ops) (id : Nat) (st : Start) :
    (tabAnswer ⟨zm, s, []⟩ ops (.create id st) = .failed .tabLimit ↔
      settingNow s ops ≤ (openTabs (tabStory ⟨zm, s, []⟩ ops)).length ∨
      zm ≤ (openTabs (tabStory ⟨zm, s, []⟩ ops)).length) ∧
    (tabAnswer ⟨zm, s, []⟩ ops (.create id .fine) = .tab id ↔
      (openTabs (tabStory ⟨zm, s, []⟩ ops)).length < settingNow s ops ∧
      (openTabs (tabStory ⟨zm, s, []⟩ ops)).length < zm) := by
  have h1 := (C117_tabs_listed_partial zm s ops hid hf).1
  unfold Tabs.list at h1
  obtain ⟨p1, p2⟩ := tabs_plain zm s ops
  unfold tabAnswer
  simp only [Tabs.step, Tabs.create, Tabs.limit, p1, p2, h1]
  constructor
  · by_cases h : (openTabs (tabStory ⟨zm, s, []⟩ ops)).length ≥ min (settingNow s ops) zm
    · rw [if_pos h]
      simp only [true_iff]
      omega
    · rw [if_neg h]
      constructor
      · intro hc; cases st <;> simp at hc
      · intro hc; omega
  · by_cases h : (openTabs (tabStory ⟨zm, s, []⟩ ops)).length ≥ min (settingNow s ops) zm
    · rw [if_pos h]
      simp only [reduceCtorEq, false_iff]
      omega
    · rw [if_neg h]
      simp only [true_iff]
      omega

/-- C117: closing a tab answers whether there was such a tab, and afterwards there is none. -/
theorem C117_tab_closed_partial (zm s : Nat) (ops : List TabOp) (hid : (drawn ops).Nodup)
    (hf : NoneLost ops) (id : Nat) :
    (tabAnswer ⟨zm, s, []⟩ ops (.close id) = .was true ↔
      id ∈ openTabs (tabStory ⟨zm, s, []⟩ ops)) ∧
    (tabAnswer ⟨zm, s, []⟩ ops (.close id) = .was false ↔
      id ∉ openTabs (tabStory ⟨zm, s, []⟩ ops)) ∧
    id ∉ ((Tabs.mk zm s []).after (ops ++ [.close id])).list := by
  have h1 := (C117_tabs_listed_partial zm s ops hid hf).1
  unfold Tabs.list at h1
  refine ⟨?_, ?_, ?_⟩
  · unfold tabAnswer
    simp only [Tabs.step, Tabs.close, h1]
    split <;> simp_all
  · unfold tabAnswer
    simp only [Tabs.step, Tabs.close, h1]
    split <;> simp_all
  · rw [tabs_after_snoc]
    simp only [Tabs.step, Tabs.close, Tabs.list]
    split
    · simp [drop]
    · assumption

/-- The hypotheses are met: the limit is lowered and raised, tabs come and go. -/
example : let ops : List TabOp := [.create 1 .fine, .create 2 .fine, .set 2, .create 3 .fine,
      .close 1, .create 4 .unspawned, .create 5 .fine]
    (drawn ops).Nodup ∧ ((Tabs.mk 8 3 []).after ops).list = [2, 5] ∧
    tabAnswer ⟨8, 3, []⟩ ops (.create 6 .fine) = .failed .tabLimit := by decide

/-- Full property: a tab that has ended is no longer a tab of the zone. Violated: a tab whose
worker ended by itself, because it was told to through its own handle or because it crashed, is
still listed and still counts, until `close_tab` is called for it. -/
theorem C117_ended_tab_counts_violated :
    let ops : List TabOp := [.create 1 .fine, .ends 1]
    ((Tabs.mk 1 8 []).after ops).list = [1] ∧
    tabAnswer ⟨1, 8, []⟩ ops (.create 2 .fine) = .failed .tabLimit := by decide

/-- Full property: a tab that could not be made is not a tab of the zone. Violated: if the worker
is gone before it was told its title and size, `create_tab` fails but the tab stays. -/
theorem C117_failed_tab_listed_violated :
    tabAnswer ⟨1, 8, []⟩ [] (.create 1 .lost) = .failed .channelClosed ∧
    ((Tabs.mk 1 8 []).after [.create 1 .lost]).list = [1] := by decide

/-! ## C119 -/

/-- The stores and counters after a history. -/
def depotAfter (ready : Nat → Bool) (us : List Use) : Depot :=
  us.foldl (fun d u => match u with
    | .tab z sv ov => (d.resolve ready z sv ov).1
    | .release s z => d.release s z) ⟨[], 0, 0⟩

theorem depotAfter_snoc (ready : Nat → Bool) (us : List Use) (u : Use) :
    depotAfter ready (us ++ [u]) = (match u with
    | .tab z sv ov => ((depotAfter ready us).resolve ready z sv ov).1
    | .release s z => (depotAfter ready us).release s z) := by
  simp only [depotAfter, List.foldl_append, List.foldl_cons, List.foldl_nil]

theorem tabs_get (ready : Nat → Bool) (d : Depot) (us : List Use) (i : Nat) :
    (d.tabs ready us)[i]? = (us[i]?).map (fun u => match u with
      | .tab z sv ov => some ((us.take i).foldl (fun d u => match u with
          | .tab z sv ov => (d.resolve ready z sv ov).1
          | .release s z => d.release s z) d |>.resolve ready z sv ov).2
      | .release _ _ => none) := by
  induction us generalizing d i with
  | nil => simp [Depot.tabs]
  | cons u us ih =>
    cases i with
    | zero => cases u <;> simp [Depot.tabs]
    | succ i =>
      cases u with
      | tab z sv ov => simp only [Depot.tabs, List.getElem?_cons_succ, List.take_succ_cons, List.foldl_cons, ih]
      | release s z => simp only [Depot.tabs, List.getElem?_cons_succ, List.take_succ_cons, List.foldl_cons, ih]

/-- The tab of a call is what `resolve_tab_services` gives at that moment. -/
theorem tabOf_eq (ready : Nat → Bool) (us : List Use) (i : Nat) :
    tabOf ready us i = (match us[i]? with
      | some (.tab z sv ov) => some ((depotAfter ready (us.take i)).resolve ready z sv ov).2
      | _ => none) := by
  unfold tabOf
  rw [tabs_get]
  cases h : us[i]? with
  | none => rfl
  | some u => cases u <;> rfl

theorem look_insert_self {α β : Type} [DecidableEq α] (m : List (α × β)) (k : α) (x : β) :
    look (insert m k x) k = some x := by
  unfold insert
  induction m with
  | nil => simp [erase, look]
  | cons p m ih =>
    obtain ⟨a, b⟩ := p
    by_cases h : a = k
    · simpa [erase, h] using ih
    · simpa [erase, look, h] using ih

theorem look_erase_self {α β : Type} [DecidableEq α] (m : List (α × β)) (k : α) :
    look (erase m k) k = none := by
  induction m with
  | nil => rfl
  | cons p m ih =>
    obtain ⟨a, b⟩ := p
    by_cases h : a = k
    · simpa [erase, h] using ih
    · simpa [erase, look, h] using ih

theorem look_erase_other {α β : Type} [DecidableEq α] (m : List (α × β)) {k k' : α} (hk : k' ≠ k) :
    look (erase m k) k' = look m k' := by
  induction m with
  | nil => rfl
  | cons p m ih =>
    obtain ⟨a, b⟩ := p
    by_cases h : a = k
    · subst h
      have : look ((a, b) :: m) k' = look m k' := by simp [look, Ne.symm hk]
      rw [this, ← ih]
      simp [erase]
    · have hf : erase ((a, b) :: m) k = (a, b) :: erase m k := by simp [erase, h]
      rw [hf]
      simp only [look, ih]

theorem look_append_none {α β : Type} [DecidableEq α] (m : List (α × β)) (k k' : α) (x : β)
    (h : k' ≠ k) : look (m ++ [(k, x)]) k' = look m k' := by
  induction m with
  | nil => simp [look, Ne.symm h]
  | cons p m ih =>
    obtain ⟨a, b⟩ := p
    simp only [List.cons_append, look, ih]

theorem look_insert_other {α β : Type} [DecidableEq α] (m : List (α × β)) {k k' : α} (x : β)
    (hk : k' ≠ k) : look (insert m k x) k' = look m k' := by
  unfold insert
  rw [look_append_none _ _ _ _ hk, look_erase_other _ hk]

/-- The jars the engine made, each with where it belongs: `g` names them in order. -/
structure JarInv (ready : Nat → Bool) (us : List Use) (d : Depot) (g : List Source) : Prop where
  len : g.length = d.nextJar
  nodup : g.Nodup
  noCaller : ∀ n, .caller n ∉ g
  own : ∀ i, .own i ∈ g → i < us.length
  store : ∀ s z k, .store s z k ∈ g → k ≤ us.count (.release s z) ∧ ready s = true
  cached : ∀ s z j, look d.cache (s, z) = some j →
    g[j]? = some (.store s z (us.count (.release s z)))
  uncached : ∀ s z, look d.cache (s, z) = none → .store s z (us.count (.release s z)) ∉ g
  tabs : ∀ i t, tabOf ready us i = some t →
    (∃ n, t.jar = .given n ∧ jarSource ready us i = some (.caller n)) ∨
    (∃ n x, t.jar = .made n ∧ g[n]? = some x ∧ jarSource ready us i = some x)

theorem getElem?_append_some {α : Type} {g : List α} {n : Nat} {x y : α} (h : g[n]? = some x) :
    (g ++ [y])[n]? = some x := by
  have hlt := (List.getElem?_eq_some_iff.1 h).1
  rw [List.getElem?_append_left hlt]; exact h

theorem tabOf_snoc_lt (ready : Nat → Bool) (us : List Use) (u : Use) (i : Nat) (hi : i < us.length) :
    tabOf ready (us ++ [u]) i = tabOf ready us i := by
  rw [tabOf_eq, tabOf_eq, List.getElem?_append_left hi, List.take_append_of_le_length (Nat.le_of_lt hi)]

theorem jarSource_snoc_lt (ready : Nat → Bool) (us : List Use) (u : Use) (i : Nat)
    (hi : i < us.length) : jarSource ready (us ++ [u]) i = jarSource ready us i := by
  unfold jarSource
  rw [List.getElem?_append_left hi, List.take_append_of_le_length (Nat.le_of_lt hi)]

theorem tabOf_lt {ready : Nat → Bool} {us : List Use} {i : Nat} {t : Tab}
    (h : tabOf ready us i = some t) : i < us.length := by
  rw [tabOf_eq] at h
  cases hu : us[i]? with
  | none => simp [hu] at h
  | some u => exact (List.getElem?_eq_some_iff.1 hu).1

theorem use_snoc_induction {P : List Use → Prop} (hnil : P [])
    (hsnoc : ∀ us u, P us → P (us ++ [u])) : ∀ us, P us := by
  intro ops
  induction h : ops.length generalizing ops with
  | zero =>
    have : ops = [] := List.length_eq_zero_iff.1 h
    rw [this]; exact hnil
  | succ n ih =>
    have hne : ops ≠ [] := by intro hc; rw [hc] at h; simp at h
    rw [← List.dropLast_concat_getLast hne]
    exact hsnoc _ _ (ih _ (by simp [h]))

theorem pickStorage_jars (d : Depot) (sv : Services) (ov : Overrides) :
    (d.pickStorage sv ov).1.cache = d.cache ∧ (d.pickStorage sv ov).1.nextJar = d.nextJar := by
  unfold Depot.pickStorage Depot.freshStorage
  split <;> simp

theorem count_tab (us : List Use) (z : Nat) (sv : Services) (ov : Overrides) (s z' : Nat) :
    (us ++ [Use.tab z sv ov]).count (.release s z') = us.count (.release s z') := by
  simp [List.count_append]

/-- A jar is made for the tab alone. -/
theorem jarInv_own {ready : Nat → Bool} {us : List Use} {d d' : Depot} {g : List Source}
    {z : Nat} {sv : Services} {ov : Overrides} (h : JarInv ready us d g)
    (hn : d'.nextJar = d.nextJar + 1) (hc : d'.cache = d.cache)
    (ht : ∀ t, tabOf ready (us ++ [.tab z sv ov]) us.length = some t → t.jar = .made d.nextJar)
    (hs : jarSource ready (us ++ [.tab z sv ov]) us.length = some (.own us.length)) :
    JarInv ready (us ++ [.tab z sv ov]) d' (g ++ [.own us.length]) := by
  refine ⟨by simp [h.len, hn], ?_, ?_, ?_, ?_, ?_, ?_, ?_⟩
  · refine List.nodup_append.2 ⟨h.nodup, by simp, ?_⟩
    intro a ha b hb hab
    have : b = .own us.length := by simpa using hb
    subst this; subst hab
    exact absurd (h.own _ ha) (by omega)
  · intro n hm
    rcases List.mem_append.1 hm with hm | hm
    · exact h.noCaller n hm
    · simp at hm
  · intro i hm
    rcases List.mem_append.1 hm with hm | hm
    · have := h.own i hm; simp; omega
    · have : i = us.length := by simpa using hm
      subst this; simp
  · intro s z' k hm
    rw [count_tab]
    rcases List.mem_append.1 hm with hm | hm
    · exact h.store s z' k hm
    · simp at hm
  · intro s z' j hl
    rw [hc] at hl
    rw [count_tab]
    exact getElem?_append_some (h.cached s z' j hl)
  · intro s z' hl
    rw [hc] at hl
    rw [count_tab]
    intro hm
    rcases List.mem_append.1 hm with hm | hm
    · exact h.uncached s z' hl hm
    · simp at hm
  · intro i t hi
    have hlt := tabOf_lt hi
    by_cases hlt' : i < us.length
    · rw [tabOf_snoc_lt _ _ _ _ hlt'] at hi
      rw [jarSource_snoc_lt _ _ _ _ hlt']
      rcases h.tabs i t hi with ⟨n, h1, h2⟩ | ⟨n, x, h1, h2, h3⟩
      · exact Or.inl ⟨n, h1, h2⟩
      · exact Or.inr ⟨n, x, h1, getElem?_append_some h2, h3⟩
    · have : i = us.length := by simp at hlt; omega
      subst this
      refine Or.inr ⟨d.nextJar, .own us.length, ht t hi, ?_, hs⟩
      rw [← h.len]; simp

/-- The tab gets a jar that was there already. -/
theorem jarInv_same {ready : Nat → Bool} {us : List Use} {d d' : Depot} {g : List Source}
    {z : Nat} {sv : Services} {ov : Overrides} (h : JarInv ready us d g)
    (hn : d'.nextJar = d.nextJar) (hc : d'.cache = d.cache)
    (ht : ∀ t, tabOf ready (us ++ [.tab z sv ov]) us.length = some t →
      (∃ n, t.jar = .given n ∧
        jarSource ready (us ++ [.tab z sv ov]) us.length = some (.caller n)) ∨
      (∃ n x, t.jar = .made n ∧ g[n]? = some x ∧
        jarSource ready (us ++ [.tab z sv ov]) us.length = some x)) :
    JarInv ready (us ++ [.tab z sv ov]) d' g := by
  refine ⟨by rw [h.len, hn], h.nodup, h.noCaller, ?_, ?_, ?_, ?_, ?_⟩
  · intro i hm
    have := h.own i hm; simp; omega
  · intro s z' k hm
    rw [count_tab]
    exact h.store s z' k hm
  · intro s z' j hl
    rw [hc] at hl
    rw [count_tab]
    exact h.cached s z' j hl
  · intro s z' hl
    rw [hc] at hl
    rw [count_tab]
    exact h.uncached s z' hl
  · intro i t hi
    have hlt := tabOf_lt hi
    by_cases hlt' : i < us.length
    · rw [tabOf_snoc_lt _ _ _ _ hlt'] at hi
      rw [jarSource_snoc_lt _ _ _ _ hlt']
      exact h.tabs i t hi
    · have : i = us.length := by simp at hlt; omega
      subst this
      exact ht t hi

theorem tabOf_last (ready : Nat → Bool) (us : List Use) (z : Nat) (sv : Services) (ov : Overrides) :
    tabOf ready (us ++ [.tab z sv ov]) us.length =
      some ((depotAfter ready us).resolve ready z sv ov).2 := by
  rw [tabOf_eq]; simp

theorem jarSource_last (ready : Nat → Bool) (us : List Use) (z : Nat) (sv : Services)
    (ov : Overrides) : jarSource ready (us ++ [.tab z sv ov]) us.length = some (
    match ov.jar, sv.jar, sv.store with
    | .custom n, _, _ => .caller n
    | .ephemeral, _, _ => .own us.length
    | .inherit, some n, _ => .caller n
    | .inherit, none, some s =>
      if ready s then .store s z (us.count (.release s z)) else .own us.length
    | .inherit, none, none => .own us.length) := by
  unfold jarSource
  simp only [List.getElem?_concat_length, List.take_left]
  cases ov.jar <;> cases sv.jar <;> cases sv.store <;> rfl

theorem jarInv_all (ready : Nat → Bool) (us : List Use) :
    ∃ g, JarInv ready us (depotAfter ready us) g := by
  refine use_snoc_induction (P := fun us => ∃ g, JarInv ready us (depotAfter ready us) g) ?_ ?_ us
  · refine ⟨[], rfl, List.nodup_nil, by simp, by simp, by simp, ?_, by simp, ?_⟩
    · intro s z j h; simp [depotAfter, look] at h
    · intro i t h
      have := tabOf_lt h
      simp at this
  · intro us u ⟨g, h⟩
    rw [depotAfter_snoc]
    cases u with
    | release s z =>
      refine ⟨g, h.len, h.nodup, h.noCaller, ?_, ?_, ?_, ?_, ?_⟩
      · intro i hm; have := h.own i hm; simp; omega
      · intro s' z' k hm
        have := h.store s' z' k hm
        refine ⟨?_, this.2⟩
        rw [List.count_append]; omega
      · intro s' z' j hl
        by_cases hk : (s', z') = (s, z)
        · rw [hk] at hl
          simp only [Depot.release, look_erase_self] at hl
          simp at hl
        · simp only [Depot.release, look_erase_other _ hk] at hl
          have hne : (Use.release s z == Use.release s' z') = false := by
            simp only [beq_eq_false_iff_ne, ne_eq, Use.release.injEq, not_and]
            rintro rfl rfl; exact hk rfl
          rw [List.count_append, List.count_cons, hne]
          simpa using h.cached s' z' j hl
      · intro s' z' hl hm
        by_cases hk : (s', z') = (s, z)
        · simp only [Prod.mk.injEq] at hk
          obtain ⟨rfl, rfl⟩ := hk
          have := (h.store s' z' _ hm).1
          rw [List.count_append] at this
          simp at this
          omega
        · simp only [Depot.release, look_erase_other _ hk] at hl
          have hne : (Use.release s z == Use.release s' z') = false := by
            simp only [beq_eq_false_iff_ne, ne_eq, Use.release.injEq, not_and]
            rintro rfl rfl; exact hk rfl
          rw [List.count_append, List.count_cons, hne] at hm
          exact h.uncached s' z' hl (by simpa using hm)
      · intro i t hi
        have hlt := tabOf_lt hi
        by_cases hlt' : i < us.length
        · rw [tabOf_snoc_lt _ _ _ _ hlt'] at hi
          rw [jarSource_snoc_lt _ _ _ _ hlt']
          exact h.tabs i t hi
        · have : i = us.length := by simp at hlt; omega
          subst this
          rw [tabOf_eq] at hi
          simp at hi
    | tab z sv ov =>
      dsimp only
      have htl := tabOf_last ready us z sv ov
      have hsl := jarSource_last ready us z sv ov
      obtain ⟨hpc, hpn⟩ := pickStorage_jars (depotAfter ready us) sv ov
      have hres : ((depotAfter ready us).resolve ready z sv ov).2.jar =
          (((depotAfter ready us).pickStorage sv ov).1.pickJar ready z sv ov).2 := rfl
      have hres1 : ((depotAfter ready us).resolve ready z sv ov).1 =
          (((depotAfter ready us).pickStorage sv ov).1.pickJar ready z sv ov).1 := rfl
      have htjar : ∀ t, tabOf ready (us ++ [.tab z sv ov]) us.length = some t →
          t.jar = (((depotAfter ready us).pickStorage sv ov).1.pickJar ready z sv ov).2 := by
        intro t ht
        rw [htl] at ht
        injection ht with ht
        rw [← ht]; exact hres
      rw [hres1]
      revert htjar
      generalize ((depotAfter ready us).pickStorage sv ov).1 = d1 at *
      intro htjar
      cases hj : ov.jar with
      | custom n =>
        have hpick : d1.pickJar ready z sv ov = (d1, .given n) := by simp [Depot.pickJar, hj]
        rw [hpick] at htjar ⊢
        refine ⟨g, jarInv_same h hpn hpc fun t ht => Or.inl ⟨n, htjar t ht, ?_⟩⟩
        rw [hsl, hj]
      | ephemeral =>
        have hpick : d1.pickJar ready z sv ov = d1.freshJar := by simp [Depot.pickJar, hj]
        rw [hpick] at htjar ⊢
        refine ⟨_, jarInv_own h (by simp [Depot.freshJar, hpn]) (by simp [Depot.freshJar, hpc])
          (fun t ht => by rw [htjar t ht]; simp [Depot.freshJar, hpn]) (by rw [hsl, hj])⟩
      | inherit =>
        cases hjj : sv.jar with
        | some n =>
          have hpick : d1.pickJar ready z sv ov = (d1, .given n) := by simp [Depot.pickJar, hj, hjj]
          rw [hpick] at htjar ⊢
          refine ⟨g, jarInv_same h hpn hpc fun t ht => Or.inl ⟨n, htjar t ht, ?_⟩⟩
          rw [hsl, hj, hjj]
        | none =>
          cases hst : sv.store with
          | none =>
            have hpick : d1.pickJar ready z sv ov = d1.freshJar := by
              simp [Depot.pickJar, hj, hjj, hst]
            rw [hpick] at htjar ⊢
            refine ⟨_, jarInv_own h (by simp [Depot.freshJar, hpn]) (by simp [Depot.freshJar, hpc])
              (fun t ht => by rw [htjar t ht]; simp [Depot.freshJar, hpn])
              (by rw [hsl, hj, hjj, hst])⟩
          | some s =>
            rw [hj, hjj, hst] at hsl
            dsimp only at hsl
            cases hl : look d1.cache (s, z) with
            | some j =>
              have hpick : d1.pickJar ready z sv ov = (d1, .made j) := by
                simp [Depot.pickJar, hj, hjj, hst, Depot.jarFor, hl]
              rw [hpick] at htjar ⊢
              have hg := h.cached s z j (by rw [← hpc]; exact hl)
              have hr := (h.store s z _ (List.mem_of_getElem? hg)).2
              rw [if_pos hr] at hsl
              exact ⟨g, jarInv_same h hpn hpc fun t ht => Or.inr ⟨j, _, htjar t ht, hg, hsl⟩⟩
            | none =>
              cases hr : ready s with
              | false =>
                have hpick : d1.pickJar ready z sv ov = d1.freshJar := by
                  simp [Depot.pickJar, hj, hjj, hst, Depot.jarFor, hl, hr]
                rw [hpick] at htjar ⊢
                refine ⟨_, jarInv_own h (by simp [Depot.freshJar, hpn])
                  (by simp [Depot.freshJar, hpc])
                  (fun t ht => by rw [htjar t ht]; simp [Depot.freshJar, hpn]) ?_⟩
                rw [hsl, hr]; rfl
              | true =>
                have hpick : d1.pickJar ready z sv ov =
                    ({ d1 with cache := insert d1.cache (s, z) d1.nextJar,
                               nextJar := d1.nextJar + 1 }, .made d1.nextJar) := by
                  simp [Depot.pickJar, hj, hjj, hst, Depot.jarFor, hl, hr]
                rw [hpick] at htjar ⊢
                rw [if_pos hr] at hsl
                have hun := h.uncached s z (by rw [← hpc]; exact hl)
                refine ⟨g ++ [.store s z (us.count (.release s z))], ?_, ?_, ?_, ?_, ?_, ?_, ?_, ?_⟩
                · simp [h.len, hpn]
                · refine List.nodup_append.2 ⟨h.nodup, by simp, ?_⟩
                  intro a ha b hb hab
                  have : b = .store s z (us.count (.release s z)) := by simpa using hb
                  subst this; subst hab
                  exact hun ha
                · intro n hm
                  rcases List.mem_append.1 hm with hm | hm
                  · exact h.noCaller n hm
                  · simp at hm
                · intro i hm
                  rcases List.mem_append.1 hm with hm | hm
                  · have := h.own i hm; simp; omega
                  · simp at hm
                · intro s' z' k hm
                  rw [count_tab]
                  rcases List.mem_append.1 hm with hm | hm
                  · exact h.store s' z' k hm
                  · simp only [List.mem_singleton, Source.store.injEq] at hm
                    obtain ⟨rfl, rfl, rfl⟩ := hm
                    exact ⟨Nat.le_refl _, hr⟩
                · intro s' z' j hl'
                  rw [count_tab]
                  dsimp only at hl'
                  by_cases hk : (s', z') = (s, z)
                  · rw [hk, look_insert_self] at hl'
                    simp only [Option.some.injEq] at hl'
                    simp only [Prod.mk.injEq] at hk
                    obtain ⟨rfl, rfl⟩ := hk
                    rw [← hl', hpn, ← h.len]; simp
                  · rw [look_insert_other _ _ hk, hpc] at hl'
                    exact getElem?_append_some (h.cached s' z' j hl')
                · intro s' z' hl' hm
                  rw [count_tab] at hm
                  dsimp only at hl'
                  by_cases hk : (s', z') = (s, z)
                  · rw [hk, look_insert_self] at hl'
                    simp at hl'
                  · rw [look_insert_other _ _ hk, hpc] at hl'
                    rcases List.mem_append.1 hm with hm | hm
                    · exact h.uncached s' z' hl' hm
                    · simp only [List.mem_singleton, Source.store.injEq] at hm
                      obtain ⟨rfl, rfl, _⟩ := hm
                      exact hk rfl
                · intro i t hi
                  have hlt := tabOf_lt hi
                  by_cases hlt' : i < us.length
                  · rw [tabOf_snoc_lt _ _ _ _ hlt'] at hi
                    rw [jarSource_snoc_lt _ _ _ _ hlt']
                    rcases h.tabs i t hi with ⟨n, h1, h2⟩ | ⟨n, x, h1, h2, h3⟩
                    · exact Or.inl ⟨n, h1, h2⟩
                    · exact Or.inr ⟨n, x, h1, getElem?_append_some h2, h3⟩
                  · have : i = us.length := by simp at hlt; omega
                    subst this
                    refine Or.inr ⟨d1.nextJar, _, htjar t hi, ?_, hsl⟩
                    rw [hpn, ← h.len]; simp

/-- C119: two tabs have the same cookie jar exactly when their cookies come from the same place:
the jar the caller chose for the tab, else the one of the zone, else the one that the zone's store
keeps for that zone until it is released, else one of the tab's own. -/
theorem C119_cookies_shared (ready : Nat → Bool) (us : List Use) (i j : Nat) (a b : Tab)
    (ha : tabOf ready us i = some a) (hb : tabOf ready us j = some b) :
    a.jar = b.jar ↔ jarSource ready us i = jarSource ready us j := by
  obtain ⟨g, h⟩ := jarInv_all ready us
  rcases h.tabs i a ha with ⟨n, h1, h2⟩ | ⟨n, x, h1, h2, h3⟩
  · rcases h.tabs j b hb with ⟨m, k1, k2⟩ | ⟨m, y, k1, k2, k3⟩
    · rw [h1, k1, h2, k2]; simp
    · rw [h1, k1, h2, k3]
      simp only [reduceCtorEq, Option.some.injEq, false_iff]
      intro hc; subst hc
      exact h.noCaller n (List.mem_of_getElem? k2)
  · rcases h.tabs j b hb with ⟨m, k1, k2⟩ | ⟨m, y, k1, k2, k3⟩
    · rw [h1, k1, h3, k2]
      simp only [reduceCtorEq, Option.some.injEq, false_iff]
      intro hc; subst hc
      exact h.noCaller m (List.mem_of_getElem? h2)
    · rw [h1, k1, h3, k3]
      simp only [Obj.made.injEq, Option.some.injEq]
      constructor
      · intro hc; subst hc
        rw [h2] at k2; simpa using k2
      · intro hc; subst hc
        have hn := (List.getElem?_eq_some_iff.1 h2).1
        exact (List.getElem?_inj hn h.nodup).1 (h2.trans k2.symm)

theorem pickJar_storage (ready : Nat → Bool) (d : Depot) (z : Nat) (sv : Services) (ov : Overrides) :
    (d.pickJar ready z sv ov).1.nextStorage = d.nextStorage := by
  unfold Depot.pickJar Depot.freshJar
  cases ov.jar with
  | custom n => rfl
  | ephemeral => rfl
  | inherit =>
    cases sv.jar with
    | some n => rfl
    | none =>
      cases sv.store with
      | none => rfl
      | some s =>
        unfold Depot.jarFor
        cases hl : look d.cache (s, z) with
        | some j => simp [hl]
        | none => cases hr : ready s <;> simp [hl, hr]

/-- The storage services the engine made belong to one tab each. -/
theorem storage_inv (ready : Nat → Bool) (us : List Use) :
    ∃ g : List Nat, g.length = (depotAfter ready us).nextStorage ∧ g.Nodup ∧
      (∀ i ∈ g, i < us.length) ∧
      ∀ i t, tabOf ready us i = some t →
        (∃ n, t.storage = .given n ∧ storageSource us i = some (.caller n)) ∨
        (∃ n, t.storage = .made n ∧ g[n]? = some i ∧ storageSource us i = some (.own i)) := by
  refine use_snoc_induction (P := fun us => ∃ g : List Nat,
      g.length = (depotAfter ready us).nextStorage ∧ g.Nodup ∧ (∀ i ∈ g, i < us.length) ∧
      ∀ i t, tabOf ready us i = some t →
        (∃ n, t.storage = .given n ∧ storageSource us i = some (.caller n)) ∨
        (∃ n, t.storage = .made n ∧ g[n]? = some i ∧ storageSource us i = some (.own i))) ?_ ?_ us
  · refine ⟨[], rfl, List.nodup_nil, by simp, ?_⟩
    intro i t h
    have := tabOf_lt h
    simp at this
  · intro us u ⟨g, h1, h2, h3, h4⟩
    have hold : ∀ g' : List Nat, (∀ n i : Nat, g[n]? = some i → g'[n]? = some i) → ∀ i t, i < us.length →
        tabOf ready (us ++ [u]) i = some t →
        (∃ n, t.storage = .given n ∧ storageSource (us ++ [u]) i = some (.caller n)) ∨
        (∃ n, t.storage = .made n ∧ g'[n]? = some i ∧
          storageSource (us ++ [u]) i = some (.own i)) := by
      intro g' hg' i t hi ht
      rw [tabOf_snoc_lt _ _ _ _ hi] at ht
      have hss : storageSource (us ++ [u]) i = storageSource us i := by
        unfold storageSource; rw [List.getElem?_append_left hi]
      rw [hss]
      rcases h4 i t ht with ⟨n, k1, k2⟩ | ⟨n, k1, k2, k3⟩
      · exact Or.inl ⟨n, k1, k2⟩
      · exact Or.inr ⟨n, k1, hg' _ _ k2, k3⟩
    have hlast : ∀ i t, tabOf ready (us ++ [u]) i = some t → ¬ i < us.length → i = us.length := by
      intro i t ht hlt
      have := tabOf_lt ht
      simp at this; omega
    cases u with
    | release s z =>
      refine ⟨g, ?_, h2, fun i hi => by have := h3 i hi; simp; omega, ?_⟩
      · rw [depotAfter_snoc]; exact h1
      · intro i t ht
        by_cases hlt : i < us.length
        · exact hold g (fun _ _ h => h) i t hlt ht
        · have := hlast i t ht hlt
          subst this
          rw [tabOf_eq] at ht
          simp at ht
    | tab z sv ov =>
      have hnext : (depotAfter ready (us ++ [.tab z sv ov])).nextStorage =
          ((depotAfter ready us).pickStorage sv ov).1.nextStorage := by
        rw [depotAfter_snoc]
        exact pickJar_storage _ _ _ _ _
      have htst : ∀ t, tabOf ready (us ++ [.tab z sv ov]) us.length = some t →
          t.storage = ((depotAfter ready us).pickStorage sv ov).2 := by
        intro t ht
        rw [tabOf_last] at ht
        injection ht with ht
        rw [← ht]; rfl
      have hsrc : storageSource (us ++ [.tab z sv ov]) us.length = some (
          match ov.storage with
          | .inherit => .caller sv.storage
          | .custom n => .caller n
          | .ephemeral => .own us.length) := by
        unfold storageSource
        rw [List.getElem?_concat_length]
        dsimp only
        generalize ov.storage = w
        cases w <;> rfl
      cases hs : ov.storage with
      | inherit =>
        refine ⟨g, ?_, h2, fun i hi => by have := h3 i hi; simp; omega, ?_⟩
        · rw [hnext]; simp [Depot.pickStorage, hs, h1]
        · intro i t ht
          by_cases hlt : i < us.length
          · exact hold g (fun _ _ h => h) i t hlt ht
          · have := hlast i t ht hlt
            subst this
            refine Or.inl ⟨sv.storage, ?_, ?_⟩
            · rw [htst t ht]; simp [Depot.pickStorage, hs]
            · rw [hsrc, hs]
      | custom n =>
        refine ⟨g, ?_, h2, fun i hi => by have := h3 i hi; simp; omega, ?_⟩
        · rw [hnext]; simp [Depot.pickStorage, hs, h1]
        · intro i t ht
          by_cases hlt : i < us.length
          · exact hold g (fun _ _ h => h) i t hlt ht
          · have := hlast i t ht hlt
            subst this
            refine Or.inl ⟨n, ?_, ?_⟩
            · rw [htst t ht]; simp [Depot.pickStorage, hs]
            · rw [hsrc, hs]
      | ephemeral =>
        refine ⟨g ++ [us.length], ?_, ?_, ?_, ?_⟩
        · rw [hnext]; simp [Depot.pickStorage, hs, h1, Depot.freshStorage]
        · refine List.nodup_append.2 ⟨h2, by simp, ?_⟩
          intro a ha b hb hab
          have : b = us.length := by simpa using hb
          subst this; subst hab
          exact absurd (h3 _ ha) (by omega)
        · intro i hi
          rcases List.mem_append.1 hi with hi | hi
          · have := h3 i hi; simp; omega
          · have : i = us.length := by simpa using hi
            subst this; simp
        · intro i t ht
          by_cases hlt : i < us.length
          · exact hold _ (fun _ _ h => getElem?_append_some h) i t hlt ht
          · have := hlast i t ht hlt
            subst this
            refine Or.inr ⟨(depotAfter ready us).nextStorage, ?_, ?_, ?_⟩
            · rw [htst t ht]; simp [Depot.pickStorage, hs, Depot.freshStorage]
            · rw [← h1]; simp
            · rw [hsrc, hs]

/-- C119: two tabs have the same storage service exactly when it comes from the same place: the
one the caller chose for the tab or the zone, or one of the tab's own. -/
theorem C119_storage_shared (ready : Nat → Bool) (us : List Use) (i j : Nat) (a b : Tab)
    (ha : tabOf ready us i = some a) (hb : tabOf ready us j = some b) :
    a.storage = b.storage ↔ storageSource us i = storageSource us j := by
  obtain ⟨g, _, h2, _, h4⟩ := storage_inv ready us
  rcases h4 i a ha with ⟨n, k1, k2⟩ | ⟨n, k1, k2, k3⟩
  · rcases h4 j b hb with ⟨m, l1, l2⟩ | ⟨m, l1, l2, l3⟩
    · rw [k1, l1, k2, l2]; simp
    · rw [k1, l1, k2, l3]; simp
  · rcases h4 j b hb with ⟨m, l1, l2⟩ | ⟨m, l1, l2, l3⟩
    · rw [k1, l1, k3, l2]; simp
    · rw [k1, l1, k3, l3]
      simp only [Obj.made.injEq, Option.some.injEq, Source.own.injEq]
      constructor
      · intro hc; subst hc
        rw [k2] at l2; simpa using l2
      · intro hc; subst hc
        have hn := (List.getElem?_eq_some_iff.1 k2).1
        exact (List.getElem?_inj hn h2).1 (k2.trans l2.symm)

/-- C119: a tab sends the languages it was given, else those of its zone. -/
theorem C119_languages (ready : Nat → Bool) (us : List Use) (i z : Nat) (sv : Services)
    (ov : Overrides) (hu : us[i]? = some (.tab z sv ov)) (a : Tab) (ha : tabOf ready us i = some a) :
    (∀ l, ov.languages = some l → a.languages = some l) ∧
    (ov.languages = none → a.languages = sv.languages) ∧ a.zone = z := by
  rw [tabOf_eq, hu] at ha
  injection ha with ha
  rw [← ha]
  refine ⟨?_, ?_, rfl⟩
  · intro l hl; simp [Depot.resolve, hl]
  · intro hl; simp [Depot.resolve, hl]

/-- A zone with a cookie store, a zone with a jar, and tabs that want their own. -/
def exampleUses : List Use :=
  let store : Services := ⟨1, some 9, none, .topLevel, none⟩
  let jar : Services := ⟨1, some 9, some 4, .topLevel, none⟩
  let plain : Overrides := ⟨none, .inherit, .inherit, none⟩
  [.tab 1 store plain, .tab 1 store plain, .tab 2 store plain, .tab 3 jar plain,
   .tab 1 store ⟨none, .ephemeral, .ephemeral, none⟩, .tab 1 store ⟨none, .custom 4, .inherit, none⟩,
   .release 9 1, .tab 1 store plain]

example : (List.range 8).map (fun i => (tabOf (fun _ => true) exampleUses i).map Tab.jar) =
    [some (.made 0), some (.made 0), some (.made 1), some (.given 4), some (.made 2),
     some (.given 4), none, some (.made 3)] := by decide

/-- Full property: the tabs of a zone share their cookies unless told otherwise. Violated: in a
zone with neither a jar nor a store, or with a store that cannot provide one, every tab has its
own. -/
theorem C119_no_store_violated :
    let sv : Services := ⟨1, none, none, .topLevel, none⟩
    let us : List Use := [.tab 1 sv ⟨none, .inherit, .inherit, none⟩,
      .tab 1 sv ⟨none, .inherit, .inherit, none⟩]
    (tabOf (fun _ => true) us 0).map Tab.jar ≠ (tabOf (fun _ => true) us 1).map Tab.jar := by decide

/-! ## C121 -/

/-- C121: two tabs without a partition key of their own see the same local storage exactly when
they have the same storage service, zone and origin, and their zones partition alike. -/
theorem C121_local_storage_partial (ready : Nat → Bool) (us : List Use) (i j z z' o o' : Nat)
    (sv sv' : Services) (ov ov' : Overrides) (a b : Tab)
    (hi : us[i]? = some (.tab z sv ov)) (hj : us[j]? = some (.tab z' sv' ov'))
    (ha : tabOf ready us i = some a) (hb : tabOf ready us j = some b)
    (hk : ov.key = none) (hk' : ov'.key = none) :
    a.localArea o = b.localArea o' ↔
      storageSource us i = storageSource us j ∧ z = z' ∧ o = o' ∧
      expectedPart sv ov o = expectedPart sv' ov' o' := by
  have hs := C119_storage_shared ready us i j a b ha hb
  rw [← hs]
  rw [tabOf_eq, hi] at ha
  rw [tabOf_eq, hj] at hb
  injection ha with ha
  injection hb with hb
  have hz : a.zone = z := by rw [← ha]; rfl
  have hz' : b.zone = z' := by rw [← hb]; rfl
  have hp : a.policy = sv.policy := by rw [← ha]; simp [Depot.resolve, hk]
  have hp' : b.policy = sv'.policy := by rw [← hb]; simp [Depot.resolve, hk']
  have he : partitionKey o a.policy = expectedPart sv ov o := by
    unfold expectedPart
    rw [hk, hp]
    cases sv.policy <;> rfl
  have he' : partitionKey o' b.policy = expectedPart sv' ov' o' := by
    unfold expectedPart
    rw [hk', hp']
    cases sv'.policy <;> rfl
  unfold Tab.localArea
  rw [he, he', hz, hz']
  simp only [Prod.mk.injEq]
  constructor
  · rintro ⟨h1, h2, h3, h4⟩; exact ⟨h1, h2, h4, h3⟩
  · rintro ⟨h1, h2, h3, h4⟩; exact ⟨h1, h2, h4, h3⟩

/-- C121: tabs of different zones, or with different storage services, or on pages of different
origins never see the same local storage, whatever keys they were given; and no two tabs see the
same session storage. -/
theorem C121_storage_apart (ready : Nat → Bool) (us : List Use) (i j o o' : Nat) (a b : Tab)
    (ha : tabOf ready us i = some a) (hb : tabOf ready us j = some b) :
    (a.localArea o = b.localArea o' →
      a.zone = b.zone ∧ o = o' ∧ storageSource us i = storageSource us j) ∧
    (i ≠ j → a.sessionArea i o ≠ b.sessionArea j o') := by
  have hs := C119_storage_shared ready us i j a b ha hb
  rw [← hs]
  unfold Tab.localArea Tab.sessionArea
  simp only [Prod.mk.injEq, ne_eq]
  constructor
  · rintro ⟨h1, h2, _, h4⟩; exact ⟨h2, h4, h1⟩
  · rintro hij ⟨_, _, h3, _⟩; exact hij h3

/-- The hypotheses are met: tabs 0 and 1 share, and tab 2 is of another zone. -/
example : ∃ a b c, tabOf (fun _ => true) exampleUses 0 = some a ∧
    tabOf (fun _ => true) exampleUses 1 = some b ∧ tabOf (fun _ => true) exampleUses 2 = some c ∧
    a.localArea 5 = b.localArea 5 ∧ a.localArea 5 ≠ c.localArea 5 := by
  refine ⟨_, _, _, rfl, rfl, rfl, ?_, ?_⟩ <;> decide

/-- Full property: a tab with a partition key uses the partition of that key. Violated: the key is
never looked at. Any two tabs of a zone that were given keys, however different, see the same
local storage for an origin: that of the global partition, which is also that of all tabs of the
zone if the zone does not partition. -/
theorem C121_partition_key_violated :
    let sv : Services := ⟨1, none, none, .none, none⟩
    let us : List Use := [.tab 1 sv ⟨some (.custom ['a']), .inherit, .inherit, none⟩,
      .tab 1 sv ⟨some (.custom ['b']), .inherit, .inherit, none⟩,
      .tab 1 sv ⟨none, .inherit, .inherit, none⟩]
    (tabOf (fun _ => true) us 0).map (fun t => t.localArea 7) =
      (tabOf (fun _ => true) us 1).map (fun t => t.localArea 7) ∧
    (tabOf (fun _ => true) us 0).map (fun t => t.localArea 7) =
      (tabOf (fun _ => true) us 2).map (fun t => t.localArea 7) := by decide

end Verif.Zones
