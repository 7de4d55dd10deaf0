import Verif.Dom.Spec
import Mathlib.Data.List.Nodup
import Mathlib.Data.List.Induction
import Mathlib.Tactic.Common

namespace Verif.Dom
open Verif Verif.Map

/-! ## The arena -/

theorem nodeAt_modify (d : Doc) (i : Nat) (f : Node → Node) (j : Nat) :
    nodeAt (modify d i f) j = if i = j then (nodeAt d j).map f else nodeAt d j := by
  unfold nodeAt modify
  simp only [List.getElem?_modify]
  by_cases h : i = j
  · subst h
    simp only [if_true]
    cases h : d.nodes[i]? with
    | none => rfl
    | some x => cases x <;> rfl
  · simp only [if_neg h]
    cases h : d.nodes[j]? <;> rfl

theorem nodeAt_put (d : Doc) (i : Nat) (n : Node) (j : Nat) :
    nodeAt (putNode d i n) j = if i = j then some n else nodeAt d j := by
  unfold nodeAt putNode
  simp only
  by_cases hi : i < d.nodes.length
  · rw [if_pos hi]
    by_cases h : i = j
    · subst h; simp [hi]
    · simp [List.getElem?_set, h]
  · rw [if_neg hi]
    have hlen : i < (d.nodes ++ List.replicate (i + 1 - d.nodes.length) (none : Option Node)).length := by
      simp; omega
    by_cases h : i = j
    · subst h; rw [List.getElem?_set_self hlen]; simp
    · rw [List.getElem?_set_ne h, if_neg h]
      by_cases hj : j < d.nodes.length
      · rw [List.getElem?_append_left hj]
      · rw [List.getElem?_append_right (by omega), List.getElem?_eq_none (l := d.nodes) (by omega),
          List.getElem?_replicate]
        split <;> rfl

theorem nodeAt_drop (d : Doc) (i j : Nat) :
    nodeAt (dropNode d i) j = if i = j then none else nodeAt d j := by
  unfold dropNode
  split
  · next hs =>
    unfold nodeAt
    simp only [List.getElem?_set]
    split
    · split <;> rfl
    · rfl
  · next hs =>
    split
    · next h => subst h; simpa using hs
    · rfl

theorem claimId_nodes (d : Doc) (v : Str) (i : Nat) :
    (claimId d v i).nodes = d.nodes ∧ (claimId d v i).nextId = d.nextId ∧ (claimId d v i).count = d.count := by
  unfold claimId; split <;> exact ⟨rfl, rfl, rfl⟩

theorem releaseIds_nodes (d : Doc) (i : Nat) :
    (releaseIds d i).nodes = d.nodes ∧ (releaseIds d i).nextId = d.nextId ∧ (releaseIds d i).count = d.count := by
  unfold releaseIds; split <;> exact ⟨rfl, rfl, rfl⟩

theorem hookNode_nodes (d : Doc) (i : Nat) (n : Node) :
    (hookNode d i n).nodes = d.nodes ∧ (hookNode d i n).nextId = d.nextId ∧ (hookNode d i n).count = d.count := by
  unfold hookNode
  split
  · exact ⟨rfl, rfl, rfl⟩
  · split
    · exact claimId_nodes ..
    · exact releaseIds_nodes ..

theorem hook_nodes (d : Doc) (i : Nat) :
    (hook d i).nodes = d.nodes ∧ (hook d i).nextId = d.nextId ∧ (hook d i).count = d.count := by
  unfold hook
  split
  · exact hookNode_nodes ..
  · exact ⟨rfl, rfl, rfl⟩

theorem nodeAt_congr {d d' : Doc} (h : d'.nodes = d.nodes) (j : Nat) : nodeAt d' j = nodeAt d j := by
  unfold nodeAt; rw [h]

theorem nodeAt_hook (d : Doc) (i j : Nat) : nodeAt (hook d i) j = nodeAt d j := nodeAt_congr (hook_nodes d i).1 j

theorem nodeAt_claim (d : Doc) (v : Str) (i j : Nat) : nodeAt (claimId d v i) j = nodeAt d j :=
  nodeAt_congr (claimId_nodes d v i).1 j

theorem nodeAt_register (d : Doc) (data : Data) (j : Nat) :
    nodeAt (register d data).1 j = if d.nextId = j then some ⟨none, [], data⟩ else nodeAt d j := by
  unfold register
  simp only [nodeAt_put]
  split
  · rfl
  · exact nodeAt_congr (hookNode_nodes _ _ _).1 j

/-- well-formed arena: one slot per id handed out, and the count is the number of existing nodes -/
structure Arena (d : Doc) : Prop where
  len : d.nodes.length = d.nextId
  count : d.count = (d.nodes.filter Option.isSome).length

theorem arena_of_eq {d d' : Doc} (h : Arena d) (h1 : d'.nodes = d.nodes) (h2 : d'.nextId = d.nextId)
    (h3 : d'.count = d.count) : Arena d' := ⟨by rw [h1, h2, h.len], by rw [h1, h3, h.count]⟩

theorem filter_modify_length (l : List (Option Node)) (i : Nat) (f : Node → Node) :
    ((l.modify i (Option.map f)).filter Option.isSome).length = (l.filter Option.isSome).length := by
  induction l generalizing i with
  | nil => simp
  | cons x r ih =>
    cases i with
    | zero => cases x <;> simp [List.modify]
    | succ i =>
      rw [List.modify_succ_cons]
      cases x <;> simp [ih]

theorem arena_modify {d : Doc} (h : Arena d) (i : Nat) (f : Node → Node) : Arena (modify d i f) :=
  ⟨by simp [modify, h.len], by simp only [modify, filter_modify_length]; exact h.count⟩

theorem arena_hook {d : Doc} (h : Arena d) (i : Nat) : Arena (hook d i) :=
  arena_of_eq h (hook_nodes d i).1 (hook_nodes d i).2.1 (hook_nodes d i).2.2

theorem arena_claim {d : Doc} (h : Arena d) (v : Str) (i : Nat) : Arena (claimId d v i) :=
  arena_of_eq h (claimId_nodes d v i).1 (claimId_nodes d v i).2.1 (claimId_nodes d v i).2.2

theorem register_fields (d : Doc) (data : Data) (h : Arena d) :
    (register d data).1.nodes = d.nodes ++ [some ⟨none, [], data⟩] ∧
    (register d data).1.nextId = d.nextId + 1 ∧ (register d data).1.count = d.count + 1 ∧
    (register d data).2 = d.nextId := by
  unfold register
  obtain ⟨h1, h2, h3⟩ := hookNode_nodes { d with nextId := d.nextId + 1 } d.nextId ⟨none, [], data⟩
  simp only
  generalize hookNode { d with nextId := d.nextId + 1 } d.nextId ⟨none, [], data⟩ = e at h1 h2 h3
  simp only at h1 h2 h3
  unfold putNode
  simp only [h1, h2, h3, ← h.len, Nat.lt_irrefl, if_false, Nat.add_sub_cancel_left, List.replicate_one]
  refine ⟨?_, trivial, ?_, trivial⟩
  · rw [List.set_append_right _ _ (Nat.le_refl _)]; simp
  · simp

theorem arena_register {d : Doc} (h : Arena d) (data : Data) : Arena (register d data).1 := by
  obtain ⟨h1, h2, h3, _⟩ := register_fields d data h
  exact ⟨by rw [h1, h2]; simp [h.len], by rw [h1, h3]; simp [h.count]⟩

theorem filter_set_none_length (l : List (Option Node)) (i : Nat) (h : ((l[i]?).join).isSome = true) :
    ((l.set i none).filter Option.isSome).length = (l.filter Option.isSome).length - 1 := by
  induction l generalizing i with
  | nil => simp at h
  | cons x r ih =>
    cases i with
    | zero => simp at h; cases x <;> simp_all
    | succ i =>
      have h' : ((r[i]?).join).isSome = true := by simpa using h
      have := ih i h'
      have hpos : 0 < (r.filter Option.isSome).length := by
        cases hx : r[i]? with
        | none => rw [hx] at h'; simp at h'
        | some y =>
          rw [hx] at h'
          exact List.length_pos_of_mem (List.mem_filter.2 ⟨List.mem_of_getElem? hx, by simpa using h'⟩)
      rw [List.set_cons_succ]
      cases x <;> simp [this]; omega

theorem arena_drop {d : Doc} (h : Arena d) (i : Nat) : Arena (dropNode d i) := by
  unfold dropNode
  split
  · next hs => exact ⟨by simp [h.len], by simp only [filter_set_none_length _ _ hs, h.count]⟩
  · exact h

theorem arena_new : Arena Doc.new := ⟨by decide, by decide⟩

/-- no node outside the ids handed out -/
theorem Arena.lt {d : Doc} (h : Arena d) {i : Nat} (hl : live d i) : i < d.nextId := by
  rw [← h.len]
  unfold live nodeAt at hl
  by_cases hi : i < d.nodes.length
  · exact hi
  · rw [List.getElem?_eq_none (by omega)] at hl; simp at hl

/-! ## Links through one call -/

theorem live_modify (d : Doc) (i : Nat) (f : Node → Node) (j : Nat) : live (modify d i f) j ↔ live d j := by
  unfold live; rw [nodeAt_modify]; split <;> simp

theorem live_hook (d : Doc) (i j : Nat) : live (hook d i) j ↔ live d j := by
  unfold live; rw [nodeAt_hook]

theorem children_hook (d : Doc) (i j : Nat) : children (hook d i) j = children d j := by
  unfold children; rw [nodeAt_hook]

theorem parent_hook (d : Doc) (i j : Nat) : parent (hook d i) j = parent d j := by
  unfold parent; rw [nodeAt_hook]

theorem children_of_not_live {d : Doc} {i : Nat} (h : ¬ live d i) : children d i = [] := by
  unfold live at h; unfold children
  cases hn : nodeAt d i with
  | none => rfl
  | some n => simp [hn] at h

theorem parent_of_not_live {d : Doc} {i : Nat} (h : ¬ live d i) : parent d i = none := by
  unfold live at h; unfold parent
  cases hn : nodeAt d i with
  | none => rfl
  | some n => simp [hn] at h

theorem children_modify_same (d : Doc) (i : Nat) (f : Node → Node) (h : ∀ n, (f n).children = n.children) (j : Nat) :
    children (modify d i f) j = children d j := by
  unfold children; rw [nodeAt_modify]
  split
  · cases nodeAt d j <;> simp [h]
  · rfl

theorem parent_modify_same (d : Doc) (i : Nat) (f : Node → Node) (h : ∀ n, (f n).parent = n.parent) (j : Nat) :
    parent (modify d i f) j = parent d j := by
  unfold parent; rw [nodeAt_modify]
  split
  · cases nodeAt d j <;> simp [h]
  · rfl

/-- the two documents have the same nodes with the same links -/
structure SameLinks (d d' : Doc) : Prop where
  live : ∀ i, live d' i ↔ live d i
  children : ∀ i, children d' i = children d i
  parent : ∀ i, parent d' i = parent d i

theorem SameLinks.refl (d : Doc) : SameLinks d d := ⟨fun _ => Iff.rfl, fun _ => rfl, fun _ => rfl⟩

theorem sameLinks_of_nodes {d d' : Doc} (h : d'.nodes = d.nodes) : SameLinks d d' :=
  ⟨fun i => by unfold Dom.live; rw [nodeAt_congr h], fun i => by unfold Dom.children; rw [nodeAt_congr h],
    fun i => by unfold Dom.parent; rw [nodeAt_congr h]⟩

theorem sameLinks_modify (d : Doc) (i : Nat) (f : Node → Node) (h : ∀ n, (f n).children = n.children)
    (h' : ∀ n, (f n).parent = n.parent) : SameLinks d (modify d i f) :=
  ⟨live_modify d i f, children_modify_same d i f h, parent_modify_same d i f h'⟩

theorem SameLinks.trans {a b c : Doc} (h : SameLinks a b) (h' : SameLinks b c) : SameLinks a c :=
  ⟨fun i => (h'.live i).trans (h.live i), fun i => (h'.children i).trans (h.children i),
    fun i => (h'.parent i).trans (h.parent i)⟩

theorem onElem_links (f : Elem → Elem) (n : Node) :
    (onElem f n).children = n.children ∧ (onElem f n).parent = n.parent := by
  unfold onElem; split <;> exact ⟨rfl, rfl⟩

theorem onText_links (f : Str → Str) (n : Node) :
    (onText f n).children = n.children ∧ (onText f n).parent = n.parent := by
  unfold onText; split <;> exact ⟨rfl, rfl⟩

theorem sameLinks_elem (d : Doc) (i : Nat) (f : Elem → Elem) : SameLinks d (modify d i (onElem f)) :=
  sameLinks_modify d i _ (fun n => (onElem_links f n).1) (fun n => (onElem_links f n).2)

theorem sameLinks_text (d : Doc) (i : Nat) (f : Str → Str) : SameLinks d (modify d i (onText f)) :=
  sameLinks_modify d i _ (fun n => (onText_links f n).1) (fun n => (onText_links f n).2)

theorem sameLinks_setAttribute (d : Doc) (i : Nat) (k v : Str) : SameLinks d (setAttribute d i k v) := by
  unfold setAttribute
  simp only
  split
  · exact (sameLinks_elem d i _).trans (sameLinks_of_nodes (claimId_nodes _ _ _).1)
  · exact sameLinks_elem d i _

/-- the children after inserting -/
def inserted (l : List Nat) (c : Nat) (pos : Option Nat) : List Nat := (insertChild c pos ⟨none, l, .document⟩).children

theorem insertChild_children (c : Nat) (pos : Option Nat) (n : Node) :
    (insertChild c pos n).children = inserted n.children c pos ∧ (insertChild c pos n).parent = n.parent := by
  unfold inserted insertChild
  cases pos with
  | none => exact ⟨rfl, rfl⟩
  | some i => simp only; split <;> exact ⟨rfl, rfl⟩

theorem inserted_perm (l : List Nat) (c : Nat) (pos : Option Nat) : (inserted l c pos).Perm (c :: l) := by
  unfold inserted insertChild
  cases pos with
  | none => exact List.perm_append_comm
  | some i =>
    simp only
    split
    · next h => exact List.perm_insertIdx c l h
    · exact List.perm_append_comm

/-- what a successful attachment changes -/
structure Attached (d d' : Doc) (n p : Nat) (pos : Option Nat) : Prop where
  live : ∀ i, live d' i ↔ live d i
  children : ∀ i, children d' i = if i = p ∧ (nodeAt d p).isSome = true then inserted (children d p) n pos else children d i
  parent : ∀ i, parent d' i = if i = n ∧ (nodeAt d n).isSome = true then some p else parent d i

theorem attach_cases {d d' : Doc} {n p : Nat} {pos : Option Nat} (h : attach d n p pos = some d') :
    (d' = d ∧ (p = n ∨ hasRec d p (d.nodes.length + 1) n = some true)) ∨
    (p ≠ n ∧ hasRec d p (d.nodes.length + 1) n = some false ∧ Attached d d' n p pos) := by
  unfold attach at h
  split at h
  · next hp => cases h; exact Or.inl ⟨rfl, Or.inl hp⟩
  · next hp =>
    split at h
    · cases h
    · next hr => cases h; exact Or.inl ⟨rfl, Or.inr hr⟩
    · next hr =>
      refine Or.inr ⟨hp, hr, ?_⟩
      simp only at h
      -- the document after the parent was changed
      have key : ∀ d1, d1 = (if (nodeAt d p).isSome then hook (modify d p (insertChild n pos)) p else d) →
          (∀ i, Dom.live d1 i ↔ Dom.live d i) ∧
          (∀ i, Dom.children d1 i = if i = p ∧ (nodeAt d p).isSome = true then inserted (Dom.children d p) n pos else Dom.children d i) ∧
          (∀ i, Dom.parent d1 i = Dom.parent d i) := by
        intro d1 hd1
        split at hd1
        · next hs =>
          subst hd1
          refine ⟨fun i => by rw [live_hook, live_modify], fun i => ?_, fun i => ?_⟩
          · rw [children_hook]
            unfold Dom.children
            rw [nodeAt_modify]
            by_cases hip : i = p
            · subst hip
              obtain ⟨m, hm⟩ := Option.isSome_iff_exists.1 hs
              simp [hm, insertChild_children]
            · rw [if_neg (Ne.symm hip), if_neg (fun h => hip h.1)]
          · rw [parent_hook, parent_modify_same]
            intro m; exact (insertChild_children n pos m).2
        · next hs =>
          subst hd1
          refine ⟨fun i => Iff.rfl, fun i => ?_, fun i => rfl⟩
          rw [if_neg (fun h => hs h.2)]
      generalize hd1 : (if (nodeAt d p).isSome then hook (modify d p (insertChild n pos)) p else d) = d1 at h
      obtain ⟨k1, k2, k3⟩ := key d1 hd1.symm
      have hnl : (nodeAt d1 n).isSome = true ↔ (nodeAt d n).isSome = true := k1 n
      split at h
      · next hs =>
        cases h
        refine ⟨fun i => by rw [live_hook, live_modify]; exact k1 i, fun i => ?_, fun i => ?_⟩
        · rw [children_hook, children_modify_same d1 n (setParent (some p)) (fun _ => rfl), k2]
        · rw [parent_hook]
          unfold Dom.parent
          rw [nodeAt_modify]
          by_cases hin : i = n
          · subst hin
            obtain ⟨m, hm⟩ := Option.isSome_iff_exists.1 hs
            rw [if_pos rfl, if_pos ⟨rfl, hnl.1 hs⟩, hm]; rfl
          · rw [if_neg (Ne.symm hin), if_neg (fun h => hin h.1)]; exact k3 i
      · next hs =>
        cases h
        refine ⟨k1, k2, fun i => ?_⟩
        rw [if_neg (fun h => hs (hnl.2 h.2))]; exact k3 i

/-- what detaching changes -/
structure Detached (d d' : Doc) (n : Nat) : Prop where
  live : ∀ i, live d' i ↔ live d i
  children : ∀ i, children d' i = if parent d n = some i then (children d i).filter fun x => decide (x ≠ n) else children d i
  parent : ∀ i, parent d' i = if i = n then none else parent d i

theorem detached_detach (d : Doc) (n : Nat) : Detached d (detach d n) n := by
  unfold detach
  cases hp : parent d n with
  | none =>
    refine ⟨fun i => Iff.rfl, fun i => ?_, fun i => ?_⟩
    · rw [hp]; simp
    · by_cases h : i = n
      · rw [if_pos h, h]; exact hp
      · rw [if_neg h]
  | some p =>
    simp only
    have key : ∀ d1, d1 = (if (nodeAt d p).isSome then hook (modify d p (removeChild n)) p else d) →
        (∀ i, Dom.live d1 i ↔ Dom.live d i) ∧
        (∀ i, Dom.children d1 i = if p = i then (Dom.children d i).filter (fun x => decide (x ≠ n)) else Dom.children d i) ∧
        (∀ i, Dom.parent d1 i = Dom.parent d i) := by
      intro d1 hd1
      split at hd1
      · next hs =>
        subst hd1
        refine ⟨fun i => by rw [live_hook, live_modify], fun i => ?_, fun i => ?_⟩
        · rw [children_hook]
          unfold Dom.children
          rw [nodeAt_modify]
          split
          · next h => subst h; cases nodeAt d p <;> simp [removeChild]
          · rfl
        · rw [parent_hook, parent_modify_same]; intro m; rfl
      · next hs =>
        subst hd1
        refine ⟨fun i => Iff.rfl, fun i => ?_, fun i => rfl⟩
        split
        · next h => subst h; rw [children_of_not_live hs]; rfl
        · rfl
    generalize hd1 : (if (nodeAt d p).isSome then hook (modify d p (removeChild n)) p else d) = d1
    obtain ⟨k1, k2, k3⟩ := key d1 hd1.symm
    refine ⟨fun i => by rw [live_hook, live_modify]; exact k1 i, fun i => ?_, fun i => ?_⟩
    · rw [children_hook, children_modify_same d1 n (setParent none) (fun _ => rfl), k2, hp]
      simp only [Option.some.injEq]
    · rw [parent_hook]
      by_cases hin : i = n
      · subst hin
        unfold Dom.parent
        rw [nodeAt_modify]
        rw [if_pos rfl, if_pos rfl]; cases nodeAt d1 i <;> rfl
      · unfold Dom.parent
        rw [nodeAt_modify, if_neg (Ne.symm hin), if_neg hin]; exact k3 i

/-- what removing changes -/
structure Deleted (d d' : Doc) (n : Nat) : Prop where
  live : ∀ i, live d' i ↔ live d i ∧ i ≠ n
  children : ∀ i, children d' i = if i = n then [] else
    if parent d n = some i then (children d i).filter fun x => decide (x ≠ n) else children d i
  parent : ∀ i, parent d' i = if i = n then none else parent d i

theorem unlist_links (d : Doc) (n : Nat) :
    (∀ i, Dom.live (unlist d n) i ↔ Dom.live d i) ∧
    (∀ i, Dom.children (unlist d n) i = if parent d n = some i then (Dom.children d i).filter (fun x => decide (x ≠ n)) else Dom.children d i) ∧
    (∀ i, Dom.parent (unlist d n) i = Dom.parent d i) := by
  unfold unlist
  cases hp : parent d n with
  | none => exact ⟨fun _ => Iff.rfl, fun i => by simp, fun _ => rfl⟩
  | some p =>
    simp only
    split
    · next hs =>
      refine ⟨fun i => by rw [live_hook, live_modify], fun i => ?_, fun i => ?_⟩
      · rw [children_hook]
        unfold Dom.children
        rw [nodeAt_modify]
        simp only [Option.some.injEq]
        split
        · next h => subst h; cases nodeAt d p <;> simp [removeChild]
        · rfl
      · rw [parent_hook, parent_modify_same]; intro m; rfl
    · next hs =>
      refine ⟨fun i => Iff.rfl, fun i => ?_, fun i => rfl⟩
      split
      · next h => cases h; rw [children_of_not_live hs]; rfl
      · rfl

theorem deleted_delete {d : Doc} {n : Nat} (hn : live d n) : Deleted d (deleteNode d n) n := by
  unfold live at hn
  unfold deleteNode
  rw [if_pos hn]
  obtain ⟨k1, k2, k3⟩ := unlist_links d n
  generalize unlist d n = d1 at k1 k2 k3
  refine ⟨fun i => ?_, fun i => ?_, fun i => ?_⟩
  · unfold Dom.live
    rw [nodeAt_drop]
    by_cases h : n = i
    · subst h; simp
    · rw [if_neg h]
      have := k1 i
      unfold Dom.live at this
      rw [this]
      exact ⟨fun h' => ⟨h', Ne.symm h⟩, fun h' => h'.1⟩
  · unfold Dom.children
    rw [nodeAt_drop]
    by_cases h : i = n
    · subst h; simp
    · rw [if_neg (Ne.symm h), if_neg h]; exact k2 i
  · unfold Dom.parent
    rw [nodeAt_drop]
    by_cases h : i = n
    · subst h; simp
    · rw [if_neg (Ne.symm h), if_neg h]; exact k3 i

/-- what creating changes -/
structure Created (d d' : Doc) : Prop where
  live : ∀ i, live d' i ↔ live d i ∨ i = d.nextId
  children : ∀ i, children d' i = if i = d.nextId then [] else children d i
  parent : ∀ i, parent d' i = if i = d.nextId then none else parent d i

theorem created_register (d : Doc) (data : Data) : Created d (register d data).1 := by
  refine ⟨fun i => ?_, fun i => ?_, fun i => ?_⟩
  · unfold Dom.live; rw [nodeAt_register]
    by_cases h : d.nextId = i
    · simp [h]
    · rw [if_neg h]
      exact ⟨Or.inl, fun h' => h'.resolve_right (Ne.symm h)⟩
  · unfold Dom.children; rw [nodeAt_register]
    by_cases h : i = d.nextId
    · simp [h]
    · rw [if_neg (Ne.symm h), if_neg h]
  · unfold Dom.parent; rw [nodeAt_register]
    by_cases h : i = d.nextId
    · simp [h]
    · rw [if_neg (Ne.symm h), if_neg h]

end Verif.Dom
