import Verif.TreeBuild.Model
import Verif.Dom.Lemmas5
import Mathlib.Tactic.Common
import Mathlib.Tactic.SplitIfs
import Mathlib.Tactic.Tauto

/-!
# The calls of the document
-/
namespace Verif.TreeBuild
open Verif Verif.Dom Relation

/-- a document as the parser meets it: a proper tree, in which named parents and contents of templates exist -/
structure Fine (d : Doc) : Prop where
  reach : Reach Tidy d
  root : live d 0
  up : ∀ c p, parent d c = some p → live d p
  inner : ∀ i c, contents d i = some c → live d c

/-- the nodes of the first document are still there, with their names -/
def Ext (d d' : Doc) : Prop := ∀ i, live d i → live d' i ∧ tag d' i = tag d i ∧ ns d' i = ns d i

theorem Ext.refl (d : Doc) : Ext d d := fun _ h => ⟨h, rfl, rfl⟩

theorem Ext.trans {a b c : Doc} (h : Ext a b) (h' : Ext b c) : Ext a c := fun i hi =>
  let x := h i hi
  let y := h' i x.1
  ⟨y.1, y.2.1.trans x.2.1, y.2.2.trans x.2.2⟩

theorem elem_data (d : Doc) (i : Nat) : elem d i = (dataAt d i).bind elemData := elem_of_data d i

theorem elem_of_eq {d d' : Doc} (h : ∀ i, dataAt d' i = dataAt d i) (i : Nat) : elem d' i = elem d i := by
  rw [elem_data, elem_data, h]

theorem ext_of_data {d d' : Doc} (hl : ∀ i, live d i → live d' i) (h : ∀ i, dataAt d' i = dataAt d i) : Ext d d' := by
  intro i hi
  refine ⟨hl i hi, ?_, ?_⟩
  · unfold tag; rw [elem_of_eq h]
  · unfold ns; rw [elem_of_eq h]

theorem contents_of_data {d d' : Doc} (h : ∀ i, dataAt d' i = dataAt d i) (i : Nat) : contents d' i = contents d i := by
  unfold contents; rw [elem_of_eq h]

/-! ## Creating -/

theorem fresh_dead {d : Doc} (h : Fine d) : ¬ live d d.nextId := fun hl =>
  absurd ((arena_reach h.reach).lt hl) (Nat.lt_irrefl _)

theorem fine_register {d : Doc} (h : Fine d) {data : Data} {o : Op} (ho : step d o = some ((register d data).1, some d.nextId))
    (hT : Tidy d o) (hc : ∀ c, (elemData data).bind (·.template) = some c → live d c) :
    Fine (register d data).1 ∧ Ext d (register d data).1 ∧ live (register d data).1 d.nextId ∧
      parent (register d data).1 d.nextId = none ∧ (∀ i, live d i → i ≠ d.nextId) ∧
      elem (register d data).1 d.nextId = elemData data ∧
      (∀ i, live d i → parent (register d data).1 i = parent d i ∧ children (register d data).1 i = children d i) := by
  have hC := created_register d data
  have hlive : ∀ i, live d i → live (register d data).1 i := fun i hi => (hC.live i).2 (.inl hi)
  have hdata : ∀ i, live d i → dataAt (register d data).1 i = dataAt d i := by
    intro i hi
    rw [dataAt_register, if_neg]
    rintro rfl; exact fresh_dead h hi
  refine ⟨⟨.step h.reach hT ho, hlive 0 h.root, ?_, ?_⟩, ?_, (hC.live _).2 (.inr rfl), ?_, ?_, ?_, ?_⟩
  · intro c p hp
    rw [hC.parent] at hp
    split at hp
    · cases hp
    · exact hlive p (h.up c p hp)
  · intro i c hi
    unfold contents at hi
    rw [elem_data, dataAt_register] at hi
    split at hi
    · exact hlive c (hc c hi)
    · refine hlive c (h.inner i c ?_)
      unfold contents; rw [elem_data]; exact hi
  · intro i hi
    refine ⟨hlive i hi, ?_, ?_⟩
    · unfold tag; rw [elem_data, elem_data, hdata i hi]
    · unfold ns; rw [elem_data, elem_data, hdata i hi]
  · rw [hC.parent, if_pos rfl]
  · rintro i hi rfl; exact fresh_dead h hi
  · rw [elem_data, dataAt_register, if_pos rfl]; rfl
  · intro i hi
    have hne : i ≠ d.nextId := by rintro rfl; exact fresh_dead h hi
    rw [hC.parent, hC.children, if_neg hne, if_neg hne]
    exact ⟨rfl, rfl⟩

/-- what a creation gives: the new document and a new node that is nowhere attached -/
structure Made (d d' : Doc) (n : Nat) : Prop where
  fine : Fine d'
  ext : Ext d d'
  new : ¬ live d n
  here : live d' n
  loose : parent d' n = none
  parents : ∀ i, live d i → parent d' i = parent d i
  kids : ∀ i, live d i → children d' i = children d i

theorem made_element {d : Doc} (h : Fine d) (name namesp : Str) (as : Attrs) :
    ∃ d' n, step d (.createElement name namesp as) = some (d', some n) ∧ Made d d' n ∧ tag d' n = name ∧ ns d' n = some namesp ∧
      isElement d' n = true := by
  obtain ⟨h1, h2, h3, h4, h5, h6, h7⟩ := fine_register h (data := elementData name namesp as) (o := .createElement name namesp as) rfl
    trivial (by intro c hc; simp [elementData, elemData] at hc)
  refine ⟨_, _, rfl, ⟨h1, h2, fresh_dead h, h3, h4, fun i hi => (h7 i hi).1, fun i hi => (h7 i hi).2⟩, ?_, ?_, ?_⟩
  · show tag _ d.nextId = _
    unfold tag; rw [h6]; rfl
  · show ns _ d.nextId = _
    unfold ns; rw [h6]; rfl
  · show isElement _ d.nextId = _
    unfold isElement
    have : elem (register d (elementData name namesp as)).1 d.nextId = _ := h6
    unfold elem at this
    rw [this]; rfl

theorem made_other {d : Doc} (h : Fine d) {o : Op} {data : Data} (ho : step d o = some ((register d data).1, some d.nextId))
    (hT : Tidy d o) (hc : elemData data = none) : ∃ d' n, step d o = some (d', some n) ∧ Made d d' n := by
  obtain ⟨h1, h2, h3, h4, _, _, h7⟩ := fine_register h ho hT (by intro c hc'; rw [hc] at hc'; cases hc')
  exact ⟨_, _, ho, ⟨h1, h2, fresh_dead h, h3, h4, fun i hi => (h7 i hi).1, fun i hi => (h7 i hi).2⟩⟩

theorem made_clone {d : Doc} (h : Fine d) {i : Nat} (hi : live d i) :
    ∃ d' n, step d (.clone i) = some (d', some n) ∧ Made d d' n ∧ tag d' n = tag d i ∧ ns d' n = ns d i := by
  obtain ⟨nd, hnd⟩ := Option.isSome_iff_exists.1 hi
  have ho : step d (.clone i) = some ((register d nd.data).1, some d.nextId) := by simp only [step, hnd]; rfl
  have he : elem d i = elemData nd.data := by rw [elem_data]; unfold dataAt; rw [hnd]; rfl
  obtain ⟨h1, h2, h3, h4, _, h6, h7⟩ := fine_register h ho trivial (by
    intro c hc
    exact h.inner i c (by unfold contents; rw [he]; exact hc))
  refine ⟨_, _, ho, ⟨h1, h2, fresh_dead h, h3, h4, fun i hi => (h7 i hi).1, fun i hi => (h7 i hi).2⟩, ?_, ?_⟩
  · unfold tag; rw [h6, he]
  · unfold ns; rw [h6, he]

/-! ## Moving -/

theorem not_child {d : Doc} (h : Fine d) {n : Nat} (hp : parent d n = none) (q : Nat) : n ∉ children d q := by
  intro hm
  have := edge_parent (agree_reach h.reach).2 hm
  rw [hp] at this; cases this

theorem fine_attach {d : Doc} (h : Fine d) {n p : Nat} (pos : Option Nat) (hn : live d n) (hp : live d p)
    (hl : parent d n = none) :
    ∃ d', step d (.attach n p pos) = some (d', none) ∧ Fine d' ∧ Ext d d' ∧ (∀ i, i ≠ n → parent d' i = parent d i) := by
  obtain ⟨d', hd⟩ := attach_total (noCycle_reach h.reach) n p pos
  have hs : step d (.attach n p pos) = some (d', none) := by simp only [step, hd, Option.map_some]
  have hpar : ∀ i, parent d' i = parent d i ∨ (i = n ∧ parent d' i = some p) := by
    intro i
    rcases attach_cases hd with ⟨rfl, _⟩ | ⟨_, _, hA⟩
    · exact .inl rfl
    · rw [hA.parent]
      split
      · next hi => exact .inr ⟨hi.1, rfl⟩
      · exact .inl rfl
  refine ⟨d', hs, ⟨.step (o := .attach n p pos) h.reach ⟨hn, hp, fun q _ => not_child h hl q⟩ hs, (attach_live hd 0).2 h.root, ?_, ?_⟩,
    ext_of_data (fun i hi => (attach_live hd i).2 hi) (dataAt_attach hd), ?_⟩
  · intro c q hq
    refine (attach_live hd q).2 ?_
    rcases hpar c with hc | ⟨_, hc⟩
    · exact h.up c q (hc ▸ hq)
    · rw [hc] at hq; cases hq; exact hp
  · intro i c hi
    rw [contents_of_data (dataAt_attach hd)] at hi
    exact (attach_live hd c).2 (h.inner i c hi)
  · intro i hi
    rcases hpar i with hc | ⟨hc, _⟩
    · exact hc
    · exact absurd hc hi

theorem fine_detach {d : Doc} (h : Fine d) (n : Nat) :
    ∃ d', step d (.detach n) = some (d', none) ∧ Fine d' ∧ Ext d d' ∧ parent d' n = none ∧
      (∀ i, i ≠ n → parent d' i = parent d i) := by
  have hD := detached_detach d n
  refine ⟨_, rfl, ⟨.step (o := .detach n) h.reach trivial rfl, (hD.live 0).2 h.root, ?_, ?_⟩,
    ext_of_data (fun i hi => (hD.live i).2 hi) (dataAt_detach d n), ?_, ?_⟩
  · intro c p hp
    rw [hD.parent] at hp
    split at hp
    · cases hp
    · exact (hD.live p).2 (h.up c p hp)
  · intro i c hi
    rw [contents_of_data (dataAt_detach d n)] at hi
    exact (hD.live c).2 (h.inner i c hi)
  · rw [hD.parent, if_pos rfl]
  · intro i hi; rw [hD.parent, if_neg hi]

theorem fine_relocate {d : Doc} (h : Fine d) {n p : Nat} (hn : live d n) (hp : live d p) :
    ∃ d', step d (.relocate n p) = some (d', none) ∧ Fine d' ∧ Ext d d' ∧ (∀ i, i ≠ n → parent d' i = parent d i) := by
  obtain ⟨d1, h1, hf, he, hl, hpar⟩ := fine_detach h n
  have hd1 : d1 = detach d n := by simp only [step] at h1; cases h1; rfl
  subst hd1
  obtain ⟨d', h2, hf', he', hpar'⟩ := fine_attach hf none (he n hn).1 (he p hp).1 hl
  have h2' : attach (detach d n) n p none = some d' := by
    simp only [step] at h2
    obtain ⟨x, hx, hy⟩ := Option.map_eq_some_iff.1 h2
    cases hy; exact hx
  have hs : step d (.relocate n p) = some (d', none) := by simp only [step, relocate, h2', Option.map_some]
  refine ⟨d', hs, ⟨.step (o := .relocate n p) h.reach ⟨hn, hp⟩ hs, hf'.root, hf'.up, hf'.inner⟩, he.trans he', ?_⟩
  intro i hi; rw [hpar' i hi, hpar i hi]

/-! ## Changing nodes in place -/

theorem fine_same {d d' : Doc} (h : Fine d) {o : Op} (hs : step d o = some (d', none)) (hT : Tidy d o)
    (hl : SameLinks d d') (he : ∀ i, (elem d' i).map (·.name) = (elem d i).map (·.name) ∧ ns d' i = ns d i)
    (hc : ∀ i c, contents d' i = some c → live d c) : Fine d' ∧ Ext d d' := by
  refine ⟨⟨.step h.reach hT hs, (hl.live 0).2 h.root, ?_, ?_⟩, ?_⟩
  · intro c p hp; rw [hl.parent] at hp; exact (hl.live p).2 (h.up c p hp)
  · intro i c hi; exact (hl.live c).2 (hc i c hi)
  · intro i hi
    refine ⟨(hl.live i).2 hi, ?_, (he i).2⟩
    unfold tag; rw [(he i).1]

theorem fine_setAttribute {d : Doc} (h : Fine d) (i : Nat) (k v : Str) :
    ∃ d', step d (.setAttribute i k v) = some (d', none) ∧ Fine d' ∧ Ext d d' := by
  have key : ∀ j, elem (setAttribute d i k v) j = if i = j then (elem d j).map fun e => e.addAttr k v else elem d j := by
    intro j; unfold elem; rw [elem_setAttribute]
  refine ⟨_, rfl, fine_same (o := .setAttribute i k v) h rfl trivial (sameLinks_setAttribute d i k v) ?_ ?_⟩
  · intro j
    unfold ns
    rw [key]
    split
    · cases elem d j with
      | none => exact ⟨rfl, rfl⟩
      | some e => exact ⟨congrArg some (addAttr_name e k v).1, congrArg some (addAttr_name e k v).2⟩
    · exact ⟨rfl, rfl⟩
  · intro j c hc
    refine h.inner j c ?_
    unfold contents at hc ⊢
    rw [key] at hc
    split at hc
    · cases he : elem d j with
      | none => rw [he] at hc; cases hc
      | some e =>
        rw [he] at hc
        simp only [Option.map_some, Option.bind_some] at hc ⊢
        rw [← hc]; unfold Elem.addAttr; simp only; first | rfl | (split <;> rfl)
    · exact hc

theorem fine_setTemplate {d : Doc} (h : Fine d) (i : Nat) {f : Nat} (hf : live d f) :
    ∃ d', step d (.setTemplate i f) = some (d', none) ∧ Fine d' ∧ Ext d d' := by
  have key : ∀ j, elem (setTemplate d i f) j = if i = j then (elem d j).map fun e => { e with template := some f } else elem d j := by
    intro j; unfold elem setTemplate; rw [elem_modify]
  refine ⟨_, rfl, fine_same (o := .setTemplate i f) h rfl trivial (sameLinks_elem d i _) ?_ ?_⟩
  · intro j
    unfold ns
    rw [key]
    split
    · cases elem d j with
      | none => exact ⟨rfl, rfl⟩
      | some e => exact ⟨rfl, rfl⟩
    · exact ⟨rfl, rfl⟩
  · intro j c hc
    unfold contents at hc
    rw [key] at hc
    split at hc
    · cases he : elem d j with
      | none => rw [he] at hc; cases hc
      | some e => rw [he] at hc; cases hc; exact hf
    · exact h.inner j c hc

theorem fine_appendText {d : Doc} (h : Fine d) (i : Nat) (v : Str) :
    ∃ d', step d (.appendText i v) = some (d', none) ∧ Fine d' ∧ Ext d d' := by
  have key : ∀ j, elem (modify d i (onText fun t => t ++ v)) j = elem d j := by
    intro j; unfold elem; rw [elem_text]
  refine ⟨_, rfl, fine_same (o := .appendText i v) h rfl trivial (sameLinks_text d i _) ?_ ?_⟩
  · intro j; unfold ns; rw [key]; exact ⟨rfl, rfl⟩
  · intro j c hc
    refine h.inner j c ?_
    unfold contents at hc ⊢; rw [key] at hc; exact hc

theorem fine_new : Fine Doc.new := by
  refine ⟨.new, rfl, fun c p h => absurd h (by rw [parent_new]; exact fun h => nomatch h), ?_⟩
  intro i c h
  unfold contents elem nodeAt Doc.new at h
  cases i with
  | zero => cases h
  | succ i => cases h

end Verif.TreeBuild
