import Verif.Dom.Lemmas5

/-!
# Theorems C35–C42: the document tree
-/
namespace Verif.Dom
open Verif Verif.Map Relation

/-! ## C35 -/

/-- C35 (downwards): whatever calls were made, with whatever ids, no node is its own descendant, and every
call that attaches or moves a node comes to an end. -/
theorem C35_down {d : Doc} (h : Reach Any d) :
    (∀ x, ¬ TransGen (Edge d) x x) ∧
    (∀ n p pos, ∃ r, step d (.attach n p pos) = some r) ∧
    (∀ n p, ∃ r, step d (.relocate n p) = some r) ∧
    (∀ n p, ∃ r, step d (.relocateUnlessThere n p) = some r) := by
  have hn := noCycle_reach h
  refine ⟨hn, ?_, ?_, ?_⟩
  · intro n p pos
    obtain ⟨d', hd⟩ := attach_total hn n p pos
    exact ⟨(d', none), by simp only [step, hd, Option.map_some]⟩
  · intro n p
    obtain ⟨d', hd⟩ := attach_total (noCycle_detach n hn) n p none
    exact ⟨(d', none), by simp only [step, relocate, hd, Option.map_some]⟩
  · intro n p
    obtain ⟨d', hd⟩ := attach_total (noCycle_detach n hn) n p none
    simp only [step, relocateUnlessThere, relocate]
    split
    · exact ⟨_, rfl⟩
    · split
      · exact ⟨_, rfl⟩
      · exact ⟨(d', none), by rw [hd]; rfl⟩

/-- C35, refusal: attaching a node to itself or below itself changes nothing. -/
theorem C35_refuse {d : Doc} (h : Reach Any d) {n p : Nat} (pos : Option Nat) (hb : ReflTransGen (Edge d) n p) :
    step d (.attach n p pos) = some (d, none) := by
  obtain ⟨d', hd⟩ := attach_total (noCycle_reach h) n p pos
  simp only [step, hd, Option.map_some, Option.some.injEq, Prod.mk.injEq, and_true]
  rcases attach_cases hd with ⟨rfl, _⟩ | ⟨hne, hr, _⟩
  · rfl
  · rcases reflTransGen_iff_eq_or_transGen.1 hb with h' | h'
    · exact absurd h' hne
    · exact absurd h' (hasRec_false hr)

/-- C35 (upwards), for calls that only use ids handed out before: no node is its own ancestor, and hovering,
which walks up, comes to an end.  Without that restriction it fails: `C35_up_violated`. -/
theorem C35_up_partial {d : Doc} (h : Reach Issued d) :
    (∀ x, ¬ TransGen (Up d) x x) ∧ ∀ leaf, ∃ r, step d (.hover leaf) = some r := by
  have hu := noCycle_up (noCycle_reach h) (upInv_reach h)
  refine ⟨hu, ?_⟩
  intro leaf
  cases leaf with
  | none => exact ⟨_, rfl⟩
  | some i =>
    obtain ⟨l, hl⟩ := climb_total (arena_reach h) hu i
    simp only [step, setHovered, hl, Option.map_some]
    exact ⟨_, rfl⟩

/-- a document, after calls given as a list -/
def after (ops : List Op) : Doc := ((run Doc.new ops).map (·.1)).getD Doc.new

/-- a `div` without attributes -/
def mkDiv : Op := .createElement "div".toList "html".toList []

theorem reach_run {P : Doc → Op → Prop} : ∀ (ops : List Op) {d d' : Doc} {outs : List (Option Nat)}, Reach P d →
    (∀ a b o, ops = a ++ o :: b → ∀ e es, run d a = some (e, es) → P e o) → run d ops = some (d', outs) → Reach P d' := by
  intro ops
  induction ops with
  | nil => intro d d' outs h _ hr; cases hr; exact h
  | cons o r ih =>
    intro d d' outs h hP hr
    simp only [run] at hr
    split at hr
    · cases hr
    · next d1 out hs =>
      obtain ⟨x, hx, hy⟩ := Option.map_eq_some_iff.1 hr
      cases hy
      refine ih (.step h (hP [] r o rfl d [] rfl) hs) ?_ hx
      intro a b o' he e es hrun
      refine hP (o :: a) b o' (by rw [he]; rfl) e (out :: es) ?_
      simp only [run, hs, hrun, Option.map_some]

theorem reach_any {ops : List Op} {r : Doc × List (Option Nat)} (h : run Doc.new ops = some r) : Reach Any (after ops) := by
  unfold after
  rw [h]
  exact reach_run ops .new (fun _ _ _ _ _ _ _ => trivial) h

/-- the history of `C35_up_violated`: a node is attached to an id that does not exist yet, then the node
with that id is created and attached to the first -/
def upOps : List Op := [mkDiv, .attach 1 2 none, mkDiv, .attach 2 1 none]

/-- C35 upwards fails with ids not handed out yet: two nodes name each other as parent, and hovering never
comes to an end. -/
theorem C35_up_violated :
    Reach Any (after upOps) ∧ TransGen (Up (after upOps)) 1 1 ∧ step (after upOps) (.hover (some 1)) = none ∧
      ∀ fuel, climb (after upOps) fuel 1 = none := by
  have h1 : parent (after upOps) 1 = some 2 := by decide +kernel
  have h2 : parent (after upOps) 2 = some 1 := by decide +kernel
  refine ⟨?_, .tail (.single h1) h2, by decide +kernel, ?_⟩
  · cases hr : run Doc.new upOps with
    | none => exact absurd hr (by decide +kernel)
    | some r => exact reach_any hr
  · have key : ∀ fuel, climb (after upOps) fuel 1 = none ∧ climb (after upOps) fuel 2 = none := by
      intro fuel
      induction fuel with
      | zero => exact ⟨rfl, rfl⟩
      | succ f ih =>
        refine ⟨?_, ?_⟩
        · unfold climb; rw [h1]; simp only [ih.2, Option.map_none]
        · unfold climb; rw [h2]; simp only [ih.1, Option.map_none]
    exact fun fuel => (key fuel).1

/-- a small tree: 1 above 2 and 3, 2 above the text 4; 3 was moved from the root -/
def treeOps : List Op :=
  [mkDiv, .attach 1 0 none, mkDiv, .attach 2 1 none, mkDiv, .attach 3 0 none, .createText "t".toList, .attach 4 2 none,
   .relocate 3 1]

theorem treeOps_ok : ∃ r, run Doc.new treeOps = some r := by
  cases h : run Doc.new treeOps with
  | none => exact absurd h (by decide +kernel)
  | some r => exact ⟨r, rfl⟩

example : Reach Any (after treeOps) ∧ children (after treeOps) 1 = [2, 3] ∧ ReflTransGen (Edge (after treeOps)) 1 4 := by
  obtain ⟨r, hr⟩ := treeOps_ok
  refine ⟨reach_any hr, by decide +kernel, .tail (.single ?_) (?_ : Edge (after treeOps) 2 4)⟩
  · show 2 ∈ children (after treeOps) 1; decide +kernel
  · show 4 ∈ children (after treeOps) 2; decide +kernel

/-- `P` holds at every call of a history, decidably -/
def allCalls (p : Doc → Op → Bool) (d : Doc) : List Op → Bool
  | [] => true
  | o :: r => p d o && match step d o with
    | some (d', _) => allCalls p d' r
    | none => false

theorem reach_all {P : Doc → Op → Prop} {p : Doc → Op → Bool} (hp : ∀ d o, p d o = true → P d o) :
    ∀ (ops : List Op) {d : Doc}, Reach P d → allCalls p d ops = true → Reach P (((run d ops).map (·.1)).getD Doc.new) := by
  intro ops
  induction ops with
  | nil => intro d h _; exact h
  | cons o r ih =>
    intro d h ha
    simp only [allCalls, Bool.and_eq_true] at ha
    obtain ⟨h1, h2⟩ := ha
    cases hs : step d o with
    | none => rw [hs] at h2; cases h2
    | some x =>
      obtain ⟨d1, out⟩ := x
      rw [hs] at h2
      have := ih (.step h (hp d o h1) hs) h2
      simp only [run, hs, Option.map_map]
      exact this

/-- `Issued`, decidably -/
def issuedB (d : Doc) (o : Op) : Bool := o.ids.all fun i => decide (i < d.nextId)

example : Reach Issued (after treeOps) ∧ parent (after treeOps) 4 = some 2 :=
  ⟨reach_all (p := issuedB) (fun d o h i hi => of_decide_eq_true (List.all_eq_true.1 h i hi)) treeOps .new
    (by decide +kernel), by decide +kernel⟩

/-! ## C36 -/

/-- C36, as long as only unattached nodes are attached (moves go through relocation), to existing nodes:
every existing node lists each child exactly once, and lists exactly the nodes that name it as parent; so
every listed node exists and no node is listed by two.  Attaching an attached node breaks it:
`C36_violated`. -/
theorem C36_partial {d : Doc} (h : Reach Tidy d) :
    LinksAgree d ∧
    (∀ p c, c ∈ children d p → live d p ∧ live d c ∧ parent d c = some p) ∧
    (∀ p q c, c ∈ children d p → c ∈ children d q → p = q) := by
  obtain ⟨_, hg⟩ := agree_reach h
  refine ⟨hg, ?_, ?_⟩
  · intro p c hc
    have := edge_parent hg hc
    exact ⟨(lt_of_children hc).1, live_of_parent this, this⟩
  · intro p q c h1 h2
    have h1 := edge_parent hg h1
    have h2 := edge_parent hg h2
    rw [h1] at h2; exact Option.some.inj h2

/-- C36, what moving a node does: it ends up as the last child of the new parent, and everything else keeps
its place. -/
theorem C36_relocate {d : Doc} (h : Reach Tidy d) {n p : Nat} (hn : live d n) (hp : live d p)
    (hnot : ¬ ReflTransGen (Edge d) n p) :
    ∃ d', step d (.relocate n p) = some (d', none) ∧ parent d' n = some p ∧
      children d' p = (children d p).filter (fun x => decide (x ≠ n)) ++ [n] ∧
      (∀ q, q ≠ p → children d' q = (children d q).filter (fun x => decide (x ≠ n))) ∧
      (∀ c, c ≠ n → parent d' c = parent d c) := by
  obtain ⟨_, hg⟩ := agree_reach h
  have hD := detached_detach d n
  have hnc := noCycle_detach n (noCycle_reach h)
  obtain ⟨d', hd⟩ := attach_total hnc n p none
  have hdet : ∀ q, children (detach d n) q = (children d q).filter fun x => decide (x ≠ n) := by
    intro q
    rw [hD.children]
    split
    · rfl
    · next hq =>
      rw [List.filter_eq_self.2]
      intro c hc
      have := edge_parent hg hc
      rw [decide_eq_true_eq]
      rintro rfl
      exact hq this
  have hsub : ∀ a b, Edge (detach d n) a b → Edge d a b := by
    intro a b hab
    unfold Edge at hab
    rw [hdet] at hab
    exact (List.mem_filter.1 hab).1
  rcases attach_cases hd with ⟨_, hr⟩ | ⟨hne, _, hA⟩
  · exfalso
    rcases hr with rfl | hr
    · exact hnot .refl
    · exact hnot (TransGen.mono hsub _ _ (hasRec_true hr)).to_reflTransGen
  · refine ⟨d', by simp only [step, relocate, hd, Option.map_some], ?_, ?_, ?_, ?_⟩
    · rw [hA.parent, if_pos ⟨rfl, (hD.live n).2 hn⟩]
    · rw [hA.children, if_pos ⟨rfl, (hD.live p).2 hp⟩, hdet]; rfl
    · intro q hq
      rw [hA.children, if_neg (fun h => hq h.1), hdet]
    · intro c hc
      rw [hA.parent, if_neg (fun h => hc h.1), hD.parent, if_neg hc]

/-- C36 fails when an attached node is attached again: two nodes list it, it names only one of them; and
attached twice to the same node, it is listed twice. -/
theorem C36_violated :
    (let d := after [mkDiv, mkDiv, mkDiv, .attach 3 1 none, .attach 3 2 none]
     Reach Any d ∧ 3 ∈ children d 1 ∧ 3 ∈ children d 2 ∧ parent d 3 = some 2) ∧
    (let d := after [mkDiv, mkDiv, .attach 2 1 none, .attach 2 1 none]
     Reach Any d ∧ (children d 1).count 2 = 2) := by
  refine ⟨⟨?_, by decide +kernel, by decide +kernel, by decide +kernel⟩, ?_, by decide +kernel⟩
  · cases hr : run Doc.new [mkDiv, mkDiv, mkDiv, .attach 3 1 none, .attach 3 2 none] with
    | none => exact absurd hr (by decide +kernel)
    | some r => exact reach_any hr
  · cases hr : run Doc.new [mkDiv, mkDiv, .attach 2 1 none, .attach 2 1 none] with
    | none => exact absurd hr (by decide +kernel)
    | some r => exact reach_any hr

/-- `live`, decidably -/
def liveB (d : Doc) (i : Nat) : Bool := (nodeAt d i).isSome

/-- `Tidy`, decidably -/
def tidyB (d : Doc) : Op → Bool
  | .attach n p _ => liveB d n && liveB d p && (List.range d.nodes.length).all fun q => decide (n ∉ children d q)
  | .relocate n p => liveB d n && liveB d p
  | .relocateUnlessThere n p => liveB d n && liveB d p
  | _ => true

theorem tidyB_sound (d : Doc) (o : Op) (h : tidyB d o = true) : Tidy d o := by
  cases o with
  | attach n p pos =>
    simp only [tidyB, Bool.and_eq_true] at h
    refine ⟨h.1.1, h.1.2, fun q hq hm => ?_⟩
    have := List.all_eq_true.1 h.2 q (List.mem_range.2 (lt_of_children hm).2)
    exact of_decide_eq_true this hm
  | relocate n p => simp only [tidyB, Bool.and_eq_true] at h; exact h
  | relocateUnlessThere n p => simp only [tidyB, Bool.and_eq_true] at h; exact h
  | _ => trivial

theorem treeOps_tidy : Reach Tidy (after treeOps) :=
  reach_all tidyB_sound treeOps .new (by decide +kernel)

example : Reach Tidy (after treeOps) ∧ live (after treeOps) 3 ∧ live (after treeOps) 2 ∧
    ¬ ReflTransGen (Edge (after treeOps)) 3 2 := by
  refine ⟨treeOps_tidy, by show liveB _ _ = true; decide +kernel, by show liveB _ _ = true; decide +kernel, ?_⟩
  intro h
  rcases ReflTransGen.cases_head h with h | ⟨c, hc, _⟩
  · exact absurd h (by decide)
  · have : children (after treeOps) 3 = [] := by decide +kernel
    unfold Edge at hc
    rw [this] at hc; simp at hc

/-! ## C37 -/

/-- C37, for every history of calls: the iterator stops, after giving the nodes below the start in document
order (each node, then the subtrees of its children in order), exactly those that can be reached. -/
theorem C37_order {d : Doc} (h : Reach Any d) (x : Nat) :
    ∃ l, Walk d x l ∧ (∀ y, y ∈ l ↔ ReflTransGen (Edge d) x y) ∧ (∀ f, iterate d f [x] = l.take f) ∧
      ∀ l', Walk d x l' → l' = l := by
  obtain ⟨l, hw, hm⟩ := walk_total (noCycle_reach h) x
  exact ⟨l, hw, hm, fun f => iterate_walks f (walk_to_walks hw),
    fun l' hw' => walks_unique (walk_to_walks hw') (walk_to_walks hw)⟩

/-- C37, once each: as long as only unattached nodes are attached, every node comes exactly once.  (A node
attached in two places comes twice: `C37_once_violated`.) -/
theorem C37_once_partial {d : Doc} (h : Reach Tidy d) (x : Nat) {l : List Nat} (hw : Walk d x l) : l.Nodup :=
  walk_nodup (noCycle_reach h) (agree_reach h).2 (no_path (noCycle_reach h) x) hw

/-- C37 fails for a node attached in two places: the iterator gives it twice. -/
theorem C37_once_violated :
    let d := after [mkDiv, mkDiv, mkDiv, .attach 1 0 none, .attach 2 0 none, .attach 3 1 none, .attach 3 2 none]
    Reach Any d ∧ ∀ f, iterate d f [0] = [0, 1, 3, 2, 3].take f := by
  have hR : Reach Any (after [mkDiv, mkDiv, mkDiv, .attach 1 0 none, .attach 2 0 none, .attach 3 1 none, .attach 3 2 none]) := by
    cases hr : run Doc.new [mkDiv, mkDiv, mkDiv, .attach 1 0 none, .attach 2 0 none, .attach 3 1 none, .attach 3 2 none] with
    | none => exact absurd hr (by decide +kernel)
    | some r => exact reach_any hr
  refine ⟨hR, fun f => ?_⟩
  obtain ⟨l, _, _, h2, _⟩ := C37_order hR 0
  have h3 := h2 6
  have h4 : iterate (after [mkDiv, mkDiv, mkDiv, .attach 1 0 none, .attach 2 0 none, .attach 3 1 none, .attach 3 2 none]) 6 [0]
      = [0, 1, 3, 2, 3] := by decide +kernel
  rw [h4] at h3
  have hl : l.length = 5 := by
    have h5 := congrArg List.length h3
    simp only [List.length_cons, List.length_nil, List.length_take] at h5
    omega
  rw [List.take_of_length_le (by omega)] at h3
  rw [h3]
  exact h2 f

example : ∃ l, Walk (after treeOps) 0 l ∧ l = [0, 1, 2, 4, 3] := by
  obtain ⟨l, h1, _, h2, _⟩ := C37_order (reach_any treeOps_ok.choose_spec) 0
  refine ⟨l, h1, ?_⟩
  have h3 := h2 6
  have h4 : iterate (after treeOps) 6 [0] = [0, 1, 2, 4, 3] := by decide +kernel
  rw [h4] at h3
  have hl : l.length = 5 := by
    have h5 := congrArg List.length h3
    simp only [List.length_cons, List.length_nil, List.length_take] at h5
    omega
  rw [List.take_of_length_le (by omega)] at h3
  exact h3.symm

/-! ## C38 -/

/-- C38: the id of a new node was never the id of a node in this document's past, and later creations get
larger ids.  (Cloning a node that does not exist is excluded: it returns the id it was given,
`C38_clone_violated`.) -/
theorem C38_fresh {d₀ d d' : Doc} {o : Op} {i : Nat} (h₀ : Reach Any d₀) (hl : ReflTransGen Next d₀ d)
    (hs : step d o = some (d', some i)) (hc : ∀ j, o = .clone j → live d j) :
    ¬ live d₀ i ∧ live d' i ∧
    (∀ e e' o' j, ReflTransGen Next d' e → step e o' = some (e', some j) → (∀ k, o' = .clone k → live e k) → i < j) := by
  have ha0 := arena_reach h₀
  obtain ⟨ha, hle, _⟩ := later_facts ha0 hl
  obtain ⟨rfl, h2, h3⟩ := create_out ha hs hc
  refine ⟨fun hli => ?_, h2, ?_⟩
  · have := ha0.lt hli; omega
  · intro e e' o' j hle' hs' hc'
    obtain ⟨hae, hne, _⟩ := later_facts (arena_step ha hs) hle'
    obtain ⟨rfl, _⟩ := create_out hae hs' hc'
    omega

/-- C38: a removed node never comes back, whatever is created later. -/
theorem C38_gone {d d' d'' : Doc} {n : Nat} {out : Option Nat} (h : Reach Any d) (hn : live d n)
    (hs : step d (.remove n) = some (d', out)) (hl : ReflTransGen Next d' d'') : ¬ live d'' n := by
  have ha := arena_reach h
  cases hs
  have ha' := (arena_delete n ha).1
  refine (later_facts ha' hl).2.2 n ?_ ?_
  · rw [(arena_delete n ha).2]; exact ha.lt hn
  · rw [(deleted_delete hn).live]; exact fun h => h.2 rfl

/-- C38: the node count is the number of ids whose node exists, and every existing node has an id below the
next one. -/
theorem C38_count {d : Doc} (h : Reach Any d) :
    d.count = ((List.range d.nextId).filter fun i => (nodeAt d i).isSome).length ∧ ∀ i, live d i → i < d.nextId := by
  have ha := arena_reach h
  refine ⟨?_, fun i hi => ha.lt hi⟩
  rw [ha.count, count_live, ha.len]
  rfl

/-- C38 fails for clones of missing nodes: the "new" id is that of the removed node, and nothing exists there. -/
theorem C38_clone_violated :
    let d := after [mkDiv, .remove 1]
    Reach Any d ∧ step d (.clone 1) = some (d, some 1) ∧ ¬ live d 1 := by
  refine ⟨?_, by decide +kernel, by show ¬ liveB _ _ = true; decide +kernel⟩
  cases hr : run Doc.new [mkDiv, .remove 1] with
  | none => exact absurd hr (by decide +kernel)
  | some r => exact reach_any hr

example : ∃ d d', Reach Any d ∧ live d 1 ∧ step d (.remove 1) = some (d', none) ∧
    ∃ d'', step d' mkDiv = some (d'', some 5) :=
  ⟨after treeOps, _, reach_any treeOps_ok.choose_spec, by show liveB _ _ = true; decide +kernel, rfl, _, rfl⟩

/-! ## C39 -/

/-- C39: a session with the queue always comes to an end, and after a flush every id handed out so far is
the id of a node that is what was asked for (name and namespace, or text), hanging under the requested
parent; all these ids are different and new. -/
theorem C39_queue {d : Doc} (h : Reach Any d) (evs : List QEv) :
    ∃ s, Session.run ⟨d, Queue.new d, []⟩ (evs ++ [.flush]) = some s ∧
      (∀ t i, (t, i) ∈ s.log → MadeAt s.doc i t ∧ ¬ live d i) ∧ (s.log.map Prod.snd).Pairwise (· < ·) := by
  have h0 : QInv d.nextId ⟨d, Queue.new d, []⟩ :=
    ⟨arena_reach h, noCycle_reach h, rfl, Nat.le_refl _, [], rfl, by simp, by simp⟩
  obtain ⟨s1, r1, q1⟩ := qinv_run evs h0
  obtain ⟨s2, r2, q2, q3⟩ := qinv_next q1 .flush
  refine ⟨s2, ?_, ?_⟩
  · rw [run_append, r1]
    simp only [Option.bind_some, Session.run, r2]
  · obtain ⟨done, k1, k2, k3⟩ := q2.log
    rw [q3 rfl] at k1
    simp only [numbered, List.append_nil] at k1
    rw [k1]
    refine ⟨fun t i hti => ?_, k3⟩
    obtain ⟨m1, m2, _⟩ := k2 (t, i) hti
    refine ⟨m1, fun hl => ?_⟩
    have := (arena_reach h).lt hl
    simp only at m2
    omega

/-- C39, the log is complete: queueing a creation hands out an id and records it, also over later events. -/
theorem C39_log {d : Doc} (h : Reach Any d) (evs : List QEv) (t : Task) (rest : List QEv)
    (ht : ∀ k v e, t ≠ .insertAttribute k v e) :
    ∃ s i s', Session.run ⟨d, Queue.new d, []⟩ evs = some s ∧ (enqueue s.queue t).2 = some i ∧
      Session.run ⟨d, Queue.new d, []⟩ (evs ++ .edit t :: rest) = some s' ∧ (t, i) ∈ s'.log := by
  have h0 : QInv d.nextId ⟨d, Queue.new d, []⟩ :=
    ⟨arena_reach h, noCycle_reach h, rfl, Nat.le_refl _, [], rfl, by simp, by simp⟩
  obtain ⟨s1, r1, q1⟩ := qinv_run evs h0
  have hid : (enqueue s1.queue t).2 = some s1.queue.next := by
    cases t with
    | insertAttribute k v e => exact absurd rfl (ht k v e)
    | _ => rfl
  obtain ⟨s2, r2, q2⟩ := qinv_run (.edit t :: rest) q1
  refine ⟨s1, s1.queue.next, s2, r1, hid, ?_, ?_⟩
  · rw [run_append, r1]; exact r2
  · -- the log only grows
    have grow : ∀ (es : List QEv) {a b : Session}, a.run es = some b → ∀ x ∈ a.log, x ∈ b.log := by
      intro es
      induction es with
      | nil => intro a b hab x hx; cases hab; exact hx
      | cons e r ih =>
        intro a b hab x hx
        simp only [Session.run] at hab
        obtain ⟨c, hc, hb⟩ := Option.bind_eq_some_iff.1 hab
        refine ih hb x ?_
        cases e with
        | edit t => simp only [Session.next, Option.some.injEq] at hc; subst hc; simp [hx]
        | flush =>
          obtain ⟨y, _, rfl⟩ := Option.map_eq_some_iff.1 hc
          exact hx
    simp only [Session.run, Session.next, Option.bind_some] at r2
    refine grow rest r2 _ ?_
    simp [hid, logEntry]

/-- C39, attribute edits: running one changes no other node, and on an element it sets the attribute, unless
the value is a malformed id or is registered as the id of another element. -/
theorem C39_attribute (d : Doc) (k v : Str) (i : Nat) :
    ∃ d', runTask d (.insertAttribute k v i) = some d' ∧ (∀ j, j ≠ i → nodeAt d' j = nodeAt d j) ∧
      (isElement d i = true → (k = "id".toList → validId v = true) → (∀ j, lookup d v = some j → j = i) →
        attr d' i k = some v) := by
  simp only [runTask]
  split
  · next h =>
    exact ⟨d, rfl, fun _ _ => rfl, fun _ hv _ => by rw [hv h.1] at h; cases h.2⟩
  · split
    · next h =>
      refine ⟨d, rfl, fun _ _ => rfl, fun _ _ hl => ?_⟩
      exfalso
      unfold takenByOther at h
      split at h
      · next j hj => rw [hl j hj] at h; simp at h
      · cases h
    · split
      · next he =>
        refine ⟨_, rfl, ?_, fun _ _ _ => ?_⟩
        · intro j hj
          unfold setAttribute
          simp only
          split
          · rw [nodeAt_claim, nodeAt_modify, if_neg (Ne.symm hj)]
          · rw [nodeAt_modify, if_neg (Ne.symm hj)]
        · unfold attr
          rw [elem_setAttribute, if_pos rfl]
          obtain ⟨e, he⟩ := Option.isSome_iff_exists.1 he
          rw [he]
          simp only [Option.map_some, Option.bind_some, Elem.addAttr]
          split <;> simp only [look_put, if_true]
      · next he => exact ⟨d, rfl, fun _ _ => rfl, fun h => absurd h he⟩

/-- C39 fails for ordinary attributes whose value happens to be some element's id: the edit is dropped. -/
theorem C39_attribute_violated :
    let d := after [.createElement "a".toList "html".toList [("id".toList, "x".toList)], mkDiv]
    isElement d 2 = true ∧ runTask d (.insertAttribute "href".toList "x".toList 2) = some d ∧
      attr d 2 "href".toList = none := by
  refine ⟨by decide +kernel, by decide +kernel, by decide +kernel⟩

example : ∃ s, Session.run ⟨Doc.new, Queue.new Doc.new, []⟩
    [.edit (.createElement "p".toList "html".toList 0 none), .edit (.createText "t".toList 1), .flush] = some s ∧
    s.log = [(.createElement "p".toList "html".toList 0 none, 1), (.createText "t".toList 1, 2)] ∧
    children s.doc 1 = [2] := ⟨_, rfl, rfl, by decide +kernel⟩

/-! ## C40 -/

/-- C40, for histories in which every call keeps the ids that elements have (no removal or change of an id,
no deletion of an element with one): looking up gives an element whose id attribute has that value, and if
some element has the (well-formed) id, one is found.  Otherwise it fails: `C40_violated`. -/
theorem C40_partial {d : Doc} (h : Reach KeepsIds d) (v : Str) :
    (∀ n, lookup d v = some n → attr d n "id".toList = some v) ∧
    (validId v = true → (∃ n, attr d n "id".toList = some v) → (lookup d v).isSome = true) := by
  have hi := idInv_reach h
  exact ⟨fun n hn => hi.own v n hn, fun hv ⟨n, hn⟩ => hi.all n v hn hv⟩

/-- an element with an id -/
def mkId (v : String) : Op := .createElement "a".toList "html".toList [("id".toList, v.toList)]

/-- C40 fails: (1) after removing the attribute the element is still found; (2) after changing it, also under
the old value; (3) after deleting the element its id still leads to it; (4) of two elements with the same id,
after deleting the first, the second is not found. -/
theorem C40_violated :
    (let d := after [mkId "x", .removeAttribute 1 "id".toList]
     lookup d "x".toList = some 1 ∧ attr d 1 "id".toList = none) ∧
    (let d := after [mkId "x", .setAttribute 1 "id".toList "y".toList]
     lookup d "x".toList = some 1 ∧ attr d 1 "id".toList = some "y".toList) ∧
    (let d := after [mkId "x", .remove 1]
     lookup d "x".toList = some 1 ∧ ¬ live d 1) ∧
    (let d := after [mkId "x", mkId "x", .remove 1]
     lookup d "x".toList = some 1 ∧ attr d 2 "id".toList = some "x".toList) := by
  refine ⟨by decide +kernel, by decide +kernel, ⟨by decide +kernel, by show ¬ liveB _ _ = true; decide +kernel⟩, by decide +kernel⟩

example : Reach KeepsIds (after [mkId "x", mkDiv, .setAttribute 2 "id".toList "y".toList]) ∧
    lookup (after [mkId "x", mkDiv, .setAttribute 2 "id".toList "y".toList]) "y".toList = some 2 := by
  refine ⟨?_, by decide +kernel⟩
  -- the calls keep ids because, before each, no element with an id is touched
  have keep : ∀ (d : Doc) (o : Op) (d1 : Doc) (out : Option Nat), step d o = some (d1, out) →
      (∀ n, n < d.nodes.length → attr d n "id".toList = none ∨ attr d1 n "id".toList = attr d n "id".toList) → KeepsIds d o := by
    intro d o d1 out hs hall d' out' h n v _ hv
    rw [hs] at h; cases h
    have hlt : n < d.nodes.length := by
      by_cases hn : n < d.nodes.length
      · exact hn
      · unfold attr nodeAt at hv
        rw [List.getElem?_eq_none (by omega)] at hv; cases hv
    rcases hall n hlt with hn | hn
    · rw [hn] at hv; cases hv
    · rw [hn]; exact hv
  have s1 : step Doc.new (mkId "x") = some (after [mkId "x"], some 1) := by decide +kernel
  have s2 : step (after [mkId "x"]) mkDiv = some (after [mkId "x", mkDiv], some 2) := by decide +kernel
  have s3 : step (after [mkId "x", mkDiv]) (.setAttribute 2 "id".toList "y".toList) =
      some (after [mkId "x", mkDiv, .setAttribute 2 "id".toList "y".toList], none) := by decide +kernel
  exact .step (.step (.step .new (keep _ _ _ _ s1 (by decide +kernel)) s1) (keep _ _ _ _ s2 (by decide +kernel)) s2)
    (keep _ _ _ _ s3 (by decide +kernel)) s3

/-! ## C41 -/

/-- C41, setting: right after the class attribute of an element is set, whatever happened before, the element
has exactly the words of the value as classes. -/
theorem C41_set {d d' : Doc} {i : Nat} {v : Str} {out : Option Nat} (he : isElement d i = true)
    (hs : step d (.setAttribute i "class".toList v) = some (d', out)) (c : Str) :
    hasClass d' i c = true ↔ IsWord c v := by
  cases hs
  obtain ⟨e, he⟩ := Option.isSome_iff_exists.1 he
  unfold hasClass
  rw [elem_setAttribute, if_pos rfl, he]
  have h0 : look ([] : List (Str × Bool)) c = none := rfl
  simp only [Option.map_some, Elem.addAttr, classKey, if_true, look_foldl_classAdd, h0, Option.isSome_none,
    Bool.false_eq_true, if_false, ← mem_words]
  split <;> simp_all

/-- C41, for histories that do not add classes on their own and remove a class attribute only if its value is
a single class: every element has exactly the classes named in its class attribute.  Otherwise it fails:
`C41_remove_violated`. -/
theorem C41_partial {d : Doc} (h : Reach ClassTidy d) (i : Nat) (c : Str) :
    hasClass d i c = true ↔ ∃ v, attr d i "class".toList = some v ∧ IsWord c v := by
  have hok := classOk_reach h
  unfold hasClass attr
  cases he : (nodeAt d i).bind elemOf with
  | none => simp
  | some e => exact hok i e he c

/-- C41 fails when a class attribute with two words is removed: both classes stay. -/
theorem C41_remove_violated :
    let d := after [.createElement "p".toList "html".toList [("class".toList, "a b".toList)], .removeAttribute 1 "class".toList]
    attr d 1 "class".toList = none ∧ hasClass d 1 "a".toList = true ∧ hasClass d 1 "b".toList = true := by
  refine ⟨by decide +kernel, by decide +kernel, by decide +kernel⟩

/-- C41: words are separated at any Unicode white space, not only at the ASCII white space of HTML, so one
HTML class name can become two. -/
theorem C41_unicode_violated :
    let d := after [.createElement "p".toList "html".toList [("class".toList, ['a', Char.ofNat 0xa0, 'b'])]]
    hasClass d 1 ['a', Char.ofNat 0xa0, 'b'] = false ∧ hasClass d 1 "a".toList = true := by
  refine ⟨by decide +kernel, by decide +kernel⟩

example : Reach ClassTidy (after [.createElement "p".toList "html".toList [("class".toList, "a b".toList)],
      .setAttribute 1 "class".toList "c".toList, .removeAttribute 1 "class".toList]) ∧
    IsWord "b".toList "a b".toList := by
  refine ⟨?_, ?_⟩
  · have s1 : step Doc.new (.createElement "p".toList "html".toList [("class".toList, "a b".toList)]) =
        some (after [.createElement "p".toList "html".toList [("class".toList, "a b".toList)]], some 1) := by decide +kernel
    have s2 : step (after [.createElement "p".toList "html".toList [("class".toList, "a b".toList)]])
        (.setAttribute 1 "class".toList "c".toList) = some (after [.createElement "p".toList "html".toList
          [("class".toList, "a b".toList)], .setAttribute 1 "class".toList "c".toList], none) := by decide +kernel
    have s3 : step (after [.createElement "p".toList "html".toList [("class".toList, "a b".toList)],
        .setAttribute 1 "class".toList "c".toList]) (.removeAttribute 1 "class".toList) =
        some (after [.createElement "p".toList "html".toList [("class".toList, "a b".toList)],
          .setAttribute 1 "class".toList "c".toList, .removeAttribute 1 "class".toList], none) := by decide +kernel
    refine .step (.step (.step .new (by exact trivial) s1) (by exact trivial) s2) ?_ s3
    intro _ v w hv hw
    have hv' : attr (after [.createElement "p".toList "html".toList [("class".toList, "a b".toList)],
        .setAttribute 1 "class".toList "c".toList]) 1 "class".toList = some "c".toList := by decide +kernel
    rw [hv'] at hv
    cases hv
    rw [← mem_words] at hw
    have : words "c".toList = ["c".toList] := by decide +kernel
    rw [this, List.mem_singleton] at hw
    exact hw
  · rw [← mem_words]; decide +kernel

/-! ## C42 -/

/-- C42, for histories that only use ids handed out before: hovering an element marks exactly it and its
ancestors; hovering nothing marks nothing; neither changes the tree. -/
theorem C42_partial {d : Doc} (h : Reach Issued d) (i : Nat) :
    (∃ d', step d (.hover (some i)) = some (d', none) ∧ (∀ x, isHovered d' x = true ↔ ReflTransGen (Up d) i x) ∧
      ∀ x, nodeAt d' x = nodeAt d x) ∧
    (∃ d', step d (.hover none) = some (d', none) ∧ ∀ x, isHovered d' x = false) := by
  have hu := noCycle_up (noCycle_reach h) (upInv_reach h)
  obtain ⟨l, hl⟩ := climb_total (arena_reach h) hu i
  refine ⟨⟨{ d with hovered := l }, ?_, ?_, fun x => nodeAt_congr rfl x⟩, ⟨{ d with hovered := [] }, rfl, ?_⟩⟩
  · simp only [step, setHovered, hl, Option.map_some]
  · intro x
    unfold isHovered
    rw [decide_eq_true_eq]
    exact climb_mem hl x
  · intro x; unfold isHovered; simp

theorem edges_up {d : Doc} (hg : LinksAgree d) {x i : Nat} (h : ReflTransGen (Edge d) x i) : ReflTransGen (Up d) i x := by
  induction h with
  | refl => exact .refl
  | tail _ he ih => exact .head (edge_parent hg he) ih

/-- C42, the marks follow the tree when only unattached nodes are attached: an existing node is marked exactly if the
hovered element is it or below it. -/
theorem C42_closed {d d' : Doc} (h : Reach Tidy d) {i : Nat} (hs : step d (.hover (some i)) = some (d', none))
    {x : Nat} (hl : live d x) : isHovered d' x = true ↔ ReflTransGen (Edge d) x i := by
  obtain ⟨hup, hg⟩ := agree_reach h
  obtain ⟨e, he, hee⟩ := Option.map_eq_some_iff.1 hs
  cases hee
  unfold setHovered at he
  obtain ⟨l, hc, rfl⟩ := Option.map_eq_some_iff.1 he
  unfold isHovered
  rw [decide_eq_true_eq]
  simp only
  rw [climb_mem hc x]
  constructor
  · intro hr
    rcases reflTransGen_iff_eq_or_transGen.1 hr with h | h
    · rw [h]
    · exact (up_edge hup h hl).to_reflTransGen
  · exact edges_up hg

example : Reach Issued (after treeOps) ∧
    ∃ d', step (after treeOps) (.hover (some 4)) = some (d', none) ∧ d'.hovered = [4, 2, 1, 0] :=
  ⟨reach_all (p := issuedB) (fun d o h i hi => of_decide_eq_true (List.all_eq_true.1 h i hi)) treeOps .new
    (by decide +kernel), _, rfl, by decide +kernel⟩

end Verif.Dom
