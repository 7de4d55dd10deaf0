import Verif.TreeBuild.Spec2
import Verif.TreeBuild.Lemmas2

/-!
# C106: what the insertion of nodes does to a document
-/
namespace Verif.TreeBuild
open Verif Verif.Dom

/-! ## One node more -/

/-- the document with one node more, the last child of `p` -/
structure Added (d d' : Doc) (p : Nat) (data : Data) : Prop where
  arena : Arena d'
  next : d'.nextId = d.nextId + 1
  new : nodeAt d' d.nextId = some ⟨some p, [], data⟩
  par : nodeAt d' p = (nodeAt d p).map fun n => { n with children := n.children ++ [d.nextId] }
  old : ∀ j, j ≠ p → j ≠ d.nextId → nodeAt d' j = nodeAt d j

theorem add_ok {d : Doc} (ha : Arena d) {p : Nat} (hp : live d p) (data : Data) :
    ∃ d', attach (register d data).1 d.nextId p none = some d' ∧ Added d d' p data := by
  have hlt : p < d.nextId := ha.lt hp
  have hne : p ≠ d.nextId := Nat.ne_of_lt hlt
  have hr := nodeAt_register d data
  obtain ⟨-, hn, -, -⟩ := register_fields d data ha
  have ha1 := arena_register ha data
  generalize (register d data).1 = d1 at hr hn ha1
  have hk : children d1 d.nextId = [] := by unfold children; rw [hr, if_pos rfl]; rfl
  have hrec : hasRec d1 p (d1.nodes.length + 1) d.nextId = some false := by
    show anyChild p _ (children d1 d.nextId) = some false
    rw [hk]; rfl
  have hp1 : (nodeAt d1 p).isSome = true := by rw [hr, if_neg (fun h => hne h.symm)]; exact hp
  have hn1 : (nodeAt (hook (modify d1 p (insertChild d.nextId none)) p) d.nextId).isSome = true := by
    rw [nodeAt_hook, nodeAt_modify, if_neg hne, hr, if_pos rfl]; rfl
  have he : attach d1 d.nextId p none = some (hook (modify (hook (modify d1 p (insertChild d.nextId none)) p) d.nextId
      (setParent (some p))) d.nextId) := by
    unfold attach
    rw [if_neg hne, hrec]
    simp only [hp1, if_true, hn1]
  refine ⟨_, he, (arena_attach ha1 he).1, (arena_attach ha1 he).2.trans hn, ?_, ?_, ?_⟩
  · rw [nodeAt_hook, nodeAt_modify, if_pos rfl, nodeAt_hook, nodeAt_modify, if_neg hne, hr, if_pos rfl]; rfl
  · rw [nodeAt_hook, nodeAt_modify, if_neg (fun h => hne h.symm), nodeAt_hook, nodeAt_modify, if_pos rfl, hr,
      if_neg (fun h => hne h.symm)]
    rfl
  · intro j h1 h2
    rw [nodeAt_hook, nodeAt_modify, if_neg (fun h => h2 h.symm), nodeAt_hook, nodeAt_modify, if_neg (fun h => h1 h.symm), hr,
      if_neg (fun h => h2 h.symm)]

/-! ## Growing under one node -/

/-- the document with more nodes, all of them below `p`; `new` are the further children of `p` -/
structure Grow (d d' : Doc) (p : Nat) (new : List Nat) : Prop where
  arena : Arena d'
  next : d.nextId ≤ d'.nextId
  par : nodeAt d' p = (nodeAt d p).map fun n => { n with children := n.children ++ new }
  old : ∀ j, j < d.nextId → j ≠ p → nodeAt d' j = nodeAt d j

theorem Grow.refl {d : Doc} (h : Arena d) (p : Nat) : Grow d d p [] :=
  ⟨h, Nat.le_refl _, by cases nodeAt d p <;> simp, fun _ _ _ => rfl⟩

theorem Grow.trans {a b c : Doc} {p : Nat} {l m : List Nat} (h : Grow a b p l) (h' : Grow b c p m) : Grow a c p (l ++ m) :=
  ⟨h'.arena, Nat.le_trans h.next h'.next, by rw [h'.par, h.par]; cases nodeAt a p <;> simp, fun j hj hp =>
    (h'.old j (Nat.lt_of_lt_of_le hj h.next) hp).trans (h.old j hj hp)⟩

theorem Added.grow {d d' : Doc} {p : Nat} {data : Data} (h : Added d d' p data) : Grow d d' p [d.nextId] :=
  ⟨h.arena, by rw [h.next]; omega, h.par, fun j hj hp => h.old j hp (by omega)⟩

/-- a node is added, and then nodes below it -/
theorem Added.under {d d1 d2 : Doc} {p : Nat} {data : Data} {new : List Nat} (h : Added d d1 p data) (hp : p < d.nextId)
    (h' : Grow d1 d2 d.nextId new) : Grow d d2 p [d.nextId] :=
  ⟨h'.arena, Nat.le_trans (by rw [h.next]; omega) h'.next, by
    rw [h'.old p (by rw [h.next]; omega) (by omega), h.par], fun j hj hp => by
    rw [h'.old j (by rw [h.next]; omega) (by omega), h.old j hp (by omega)]⟩

theorem Grow.data {d d' : Doc} {p : Nat} {new : List Nat} (h : Grow d d' p new) {j : Nat} (hj : j < d.nextId) :
    dataAt d' j = dataAt d j := by
  unfold dataAt
  by_cases hp : j = p
  · subst hp; rw [h.par]; cases nodeAt d j <;> rfl
  · rw [h.old j hj hp]

theorem Grow.elem {d d' : Doc} {p : Nat} {new : List Nat} (h : Grow d d' p new) {j : Nat} (hj : j < d.nextId) :
    elem d' j = elem d j := by rw [elem_data, elem_data, h.data hj]

theorem Grow.tag {d d' : Doc} {p : Nat} {new : List Nat} (h : Grow d d' p new) {j : Nat} (hj : j < d.nextId) :
    tag d' j = tag d j := by unfold TreeBuild.tag; rw [h.elem hj]

theorem Grow.ns {d d' : Doc} {p : Nat} {new : List Nat} (h : Grow d d' p new) {j : Nat} (hj : j < d.nextId) :
    ns d' j = ns d j := by unfold TreeBuild.ns; rw [h.elem hj]

theorem Grow.live {d d' : Doc} {p : Nat} {new : List Nat} (h : Grow d d' p new) {j : Nat} (hj : j < d.nextId) :
    live d' j ↔ live d j := by
  unfold Dom.live
  by_cases hp : j = p
  · subst hp; rw [h.par]; cases nodeAt d j <;> simp
  · rw [h.old j hj hp]

theorem Grow.children {d d' : Doc} {p : Nat} {new : List Nat} (h : Grow d d' p new) (hp : Dom.live d p) :
    children d' p = children d p ++ new := by
  unfold Dom.children
  rw [h.par]
  unfold Dom.live at hp
  cases hn : nodeAt d p with
  | none => rw [hn] at hp; cases hp
  | some n => rfl

/-! ## Trees made of new nodes -/

mutual
/-- the node is this tree, and all its nodes are from `lo` on -/
def TreeFrom (d : Doc) (lo i : Nat) : Tree → Prop
  | .elem n as kids => (lo ≤ i ∧ i < d.nextId) ∧ (∃ e, dataAt d i = some (.element e) ∧ e.name = n ∧ e.ns = htmlNs ∧ e.attrs = as) ∧
      TreesFrom d lo (children d i) kids
  | .text v => (lo ≤ i ∧ i < d.nextId) ∧ dataAt d i = some (.text v) ∧ children d i = []
  | .comment v => (lo ≤ i ∧ i < d.nextId) ∧ dataAt d i = some (.comment v) ∧ children d i = []
def TreesFrom (d : Doc) (lo : Nat) : List Nat → List Tree → Prop
  | l, [] => l = []
  | l, t :: r => ∃ i l', l = i :: l' ∧ TreeFrom d lo i t ∧ TreesFrom d lo l' r
end

mutual
theorem TreeFrom.is {d : Doc} {lo i : Nat} : ∀ {t : Tree}, TreeFrom d lo i t → IsTree d i t
  | .elem n as kids, h => by
    obtain ⟨-, h1, h2⟩ := h
    exact ⟨h1, TreesFrom.are h2⟩
  | .text v, h => h.2
  | .comment v, h => h.2
theorem TreesFrom.are {d : Doc} {lo : Nat} : ∀ {l : List Nat} {ts : List Tree}, TreesFrom d lo l ts → AreTrees d l ts
  | l, [], h => h
  | l, t :: r, h => by
    obtain ⟨i, l', h1, h2, h3⟩ := h
    exact ⟨i, l', h1, TreeFrom.is h2, TreesFrom.are h3⟩
end

/-- the nodes from `lo` on are the same in both documents -/
structure Frame (d d' : Doc) (lo : Nat) : Prop where
  next : d.nextId ≤ d'.nextId
  same : ∀ j, lo ≤ j → j < d.nextId → nodeAt d' j = nodeAt d j

mutual
theorem TreeFrom.frame {d d' : Doc} {lo lo' : Nat} (h : Frame d d' lo) (hl : lo' ≤ lo) {i : Nat} :
    ∀ {t : Tree}, TreeFrom d lo i t → TreeFrom d' lo' i t
  | .elem n as kids, ht => by
    obtain ⟨⟨h1, h2⟩, ⟨e, h3, h4⟩, h5⟩ := ht
    have hn := h.same i h1 h2
    refine ⟨⟨Nat.le_trans hl h1, Nat.lt_of_lt_of_le h2 h.next⟩, ⟨e, ?_, h4⟩, ?_⟩
    · unfold dataAt; rw [hn]; exact h3
    · have : children d' i = children d i := by unfold children; rw [hn]
      rw [this]
      exact TreesFrom.frame h hl h5
  | .text v, ht => by
    obtain ⟨⟨h1, h2⟩, h3, h4⟩ := ht
    have hn := h.same i h1 h2
    exact ⟨⟨Nat.le_trans hl h1, Nat.lt_of_lt_of_le h2 h.next⟩, by unfold dataAt; rw [hn]; exact h3, by
      unfold children; rw [hn]; exact h4⟩
  | .comment v, ht => by
    obtain ⟨⟨h1, h2⟩, h3, h4⟩ := ht
    have hn := h.same i h1 h2
    exact ⟨⟨Nat.le_trans hl h1, Nat.lt_of_lt_of_le h2 h.next⟩, by unfold dataAt; rw [hn]; exact h3, by
      unfold children; rw [hn]; exact h4⟩
theorem TreesFrom.frame {d d' : Doc} {lo lo' : Nat} (h : Frame d d' lo) (hl : lo' ≤ lo) :
    ∀ {l : List Nat} {ts : List Tree}, TreesFrom d lo l ts → TreesFrom d' lo' l ts
  | l, [], ht => ht
  | l, t :: r, ht => by
    obtain ⟨i, l', h1, h2, h3⟩ := ht
    exact ⟨i, l', h1, TreeFrom.frame h hl h2, TreesFrom.frame h hl h3⟩
end

theorem Grow.frame {d d' : Doc} {p : Nat} {new : List Nat} (h : Grow d d' p new) {lo : Nat} (hp : p < lo) : Frame d d' lo :=
  ⟨h.next, fun j h1 h2 => h.old j h2 (by omega)⟩

theorem Frame.refl (d : Doc) (lo : Nat) : Frame d d lo := ⟨Nat.le_refl _, fun _ _ _ => rfl⟩

/-- the tree of an element that was added and whose content came then -/
theorem treeFrom_elem {d d1 d2 : Doc} {p : Nat} {n : Str} {as : Attrs} {new : List Nat} {kids : List Tree}
    (h : Added d d1 p (elementData n htmlNs as)) (h' : Grow d1 d2 d.nextId new) (hk : TreesFrom d2 d1.nextId new kids) :
    TreeFrom d2 d.nextId d.nextId (.elem n as kids) := by
  have hlt : d.nextId < d1.nextId := by rw [h.next]; omega
  refine ⟨⟨Nat.le_refl _, Nat.lt_of_lt_of_le hlt h'.next⟩, ⟨⟨n, htmlNs, as, ((Map.look as classKey).map classFrom).getD [], none⟩, ?_, rfl, rfl, rfl⟩, ?_⟩
  · rw [h'.data hlt]; unfold dataAt; rw [h.new]; rfl
  · rw [h'.children (by unfold live; rw [h.new]; rfl)]
    have : children d1 d.nextId = [] := by unfold children; rw [h.new]; rfl
    rw [this, List.nil_append]
    exact TreesFrom.frame (Frame.refl _ _) (Nat.le_of_lt hlt) hk

/-- a tree, and then trees -/
theorem treesFrom_cons {a b c : Doc} {p : Nat} {i : Nat} {l new : List Nat} {t : Tree} {ts : List Tree} (hp : p < a.nextId)
    (hab : a.nextId ≤ b.nextId) (hg : Grow b c p new) (h1 : TreeFrom b a.nextId i t) (h2 : TreesFrom c b.nextId l ts) :
    TreesFrom c a.nextId (i :: l) (t :: ts) :=
  ⟨i, l, rfl, TreeFrom.frame (hg.frame hp) (Nat.le_refl _) h1, TreesFrom.frame (Frame.refl _ _) hab h2⟩

end Verif.TreeBuild
