import Verif.Dom.Lemmas
import Mathlib.Data.List.Perm.Subperm

namespace Verif.Dom
open Verif Verif.Map Relation

/-! ## What one call does to arena and links -/

theorem arena_attach {d d' : Doc} {n p : Nat} {pos : Option Nat} (ha : Arena d) (h : attach d n p pos = some d') :
    Arena d' ∧ d'.nextId = d.nextId := by
  unfold attach at h
  split at h
  · cases h; exact ⟨ha, rfl⟩
  · split at h
    · cases h
    · cases h; exact ⟨ha, rfl⟩
    · simp only at h
      have key : ∀ d1, (if (nodeAt d p).isSome then hook (modify d p (insertChild n pos)) p else d) = d1 →
          Arena d1 ∧ d1.nextId = d.nextId := by
        intro d1 hd
        split at hd
        · subst hd; exact ⟨arena_hook (arena_modify ha _ _) _, (hook_nodes _ _).2.1⟩
        · subst hd; exact ⟨ha, rfl⟩
      generalize hd1 : (if (nodeAt d p).isSome then hook (modify d p (insertChild n pos)) p else d) = d1 at h
      obtain ⟨k1, k2⟩ := key d1 hd1
      split at h
      · cases h; exact ⟨arena_hook (arena_modify k1 _ _) _, ((hook_nodes _ _).2.1).trans k2⟩
      · cases h; exact ⟨k1, k2⟩

theorem arena_detach {d : Doc} (n : Nat) (ha : Arena d) :
    Arena (detach d n) ∧ (detach d n).nextId = d.nextId := by
  unfold detach
  split
  · exact ⟨ha, rfl⟩
  · next p _ =>
    simp only
    have key : ∀ d1, (if (nodeAt d p).isSome then hook (modify d p (removeChild n)) p else d) = d1 →
        Arena d1 ∧ d1.nextId = d.nextId := by
      intro d1 hd
      split at hd
      · subst hd; exact ⟨arena_hook (arena_modify ha _ _) _, (hook_nodes _ _).2.1⟩
      · subst hd; exact ⟨ha, rfl⟩
    generalize hd1 : (if (nodeAt d p).isSome then hook (modify d p (removeChild n)) p else d) = d1
    obtain ⟨k1, k2⟩ := key d1 hd1
    exact ⟨arena_hook (arena_modify k1 _ _) _, ((hook_nodes _ _).2.1).trans k2⟩

theorem arena_delete {d : Doc} (n : Nat) (ha : Arena d) :
    Arena (deleteNode d n) ∧ (deleteNode d n).nextId = d.nextId := by
  unfold deleteNode
  split
  · have key : Arena (unlist d n) ∧ (unlist d n).nextId = d.nextId := by
      unfold unlist
      split
      · split
        · exact ⟨arena_hook (arena_modify ha _ _) _, (hook_nodes _ _).2.1⟩
        · exact ⟨ha, rfl⟩
      · exact ⟨ha, rfl⟩
    refine ⟨arena_drop key.1 n, ?_⟩
    unfold dropNode
    split <;> exact key.2
  · exact ⟨ha, rfl⟩

theorem delete_dead {d : Doc} {n : Nat} (h : ¬ live d n) : deleteNode d n = d := by
  unfold live at h
  unfold deleteNode; rw [if_neg h]

/-- What a call can do to the links. -/
inductive Eff (d : Doc) (o : Op) (d' : Doc) (out : Option Nat) : Prop
  | make (data : Data) (h : d' = (register d data).1) (ho : out = some d.nextId)
  | same (h : SameLinks d d') (hn : d'.nextId = d.nextId)
  | attach (n p : Nat) (pos : Option Nat) (ho : o = .attach n p pos) (h : Dom.attach d n p pos = some d')
  | detach (n : Nat) (ho : o = .detach n) (h : d' = Dom.detach d n)
  | remove (n : Nat) (ho : o = .remove n) (h : d' = deleteNode d n)
  | move (n p : Nat) (ho : o = .relocate n p ∨ o = .relocateUnlessThere n p)
      (h : Dom.attach (Dom.detach d n) n p none = some d')

theorem setAttribute_nextId (d : Doc) (i : Nat) (k v : Str) : (setAttribute d i k v).nextId = d.nextId := by
  unfold setAttribute
  simp only
  split
  · exact (claimId_nodes _ _ _).2.1
  · rfl

theorem setHovered_links {d d' : Doc} {leaf : Option Nat} (h : setHovered d leaf = some d') :
    d'.nodes = d.nodes ∧ d'.nextId = d.nextId ∧ d'.count = d.count ∧ d'.named = d.named ∧ d'.byNode = d.byNode := by
  unfold setHovered at h
  split at h
  · cases h; exact ⟨rfl, rfl, rfl, rfl, rfl⟩
  · obtain ⟨l, _, rfl⟩ := Option.map_eq_some_iff.1 h; exact ⟨rfl, rfl, rfl, rfl, rfl⟩

theorem register_snd (d : Doc) (data : Data) : (register d data).2 = d.nextId := rfl

theorem eff_of_step {d d' : Doc} {o : Op} {out : Option Nat} (h : step d o = some (d', out)) : Eff d o d' out := by
  cases o with
  | createElement a b c => simp only [step] at h; cases h; exact .make _ rfl rfl
  | createText a => simp only [step] at h; cases h; exact .make _ rfl rfl
  | createComment a => simp only [step] at h; cases h; exact .make _ rfl rfl
  | createDoctype a b c => simp only [step] at h; cases h; exact .make _ rfl rfl
  | clone i =>
    simp only [step] at h
    split at h
    · cases h; exact .make _ rfl rfl
    · cases h; exact .same (.refl d) rfl
  | attach n p pos =>
    obtain ⟨x, hx, hy⟩ := Option.map_eq_some_iff.1 h
    cases hy; exact .attach n p pos rfl hx
  | detach n => cases h; exact .detach n rfl rfl
  | remove n => cases h; exact .remove n rfl rfl
  | relocate n p =>
    obtain ⟨x, hx, hy⟩ := Option.map_eq_some_iff.1 h
    cases hy; exact .move n p (Or.inl rfl) hx
  | relocateUnlessThere n p =>
    obtain ⟨x, hx, hy⟩ := Option.map_eq_some_iff.1 h
    cases hy
    unfold relocateUnlessThere at hx
    split at hx
    · cases hx; exact .same (.refl d) rfl
    · split at hx
      · cases hx; exact .same (.refl d) rfl
      · exact .move n p (Or.inr rfl) hx
  | setAttribute i k v => cases h; exact .same (sameLinks_setAttribute d i k v) (setAttribute_nextId d i k v)
  | removeAttribute i k => cases h; exact .same (sameLinks_elem d i _) rfl
  | addClass i c => cases h; exact .same (sameLinks_elem d i _) rfl
  | setTemplate i f => cases h; exact .same (sameLinks_elem d i _) rfl
  | setText i v => cases h; exact .same (sameLinks_text d i _) rfl
  | appendText i v => cases h; exact .same (sameLinks_text d i _) rfl
  | hover leaf =>
    obtain ⟨x, hx, hy⟩ := Option.map_eq_some_iff.1 h
    cases hy; exact .same (sameLinks_of_nodes (setHovered_links hx).1) (setHovered_links hx).2.1
  | focus n => cases h; exact .same (sameLinks_of_nodes rfl) rfl

theorem arena_step {d d' : Doc} {o : Op} {out : Option Nat} (ha : Arena d) (h : step d o = some (d', out)) :
    Arena d' := by
  cases o with
  | createElement a b c => simp only [step] at h; cases h; exact arena_register ha _
  | createText a => simp only [step] at h; cases h; exact arena_register ha _
  | createComment a => simp only [step] at h; cases h; exact arena_register ha _
  | createDoctype a b c => simp only [step] at h; cases h; exact arena_register ha _
  | clone i =>
    simp only [step] at h
    split at h
    · cases h; exact arena_register ha _
    · cases h; exact ha
  | attach n p pos =>
    obtain ⟨x, hx, hy⟩ := Option.map_eq_some_iff.1 h
    cases hy; exact (arena_attach ha hx).1
  | detach n => cases h; exact (arena_detach n ha).1
  | remove n => cases h; exact (arena_delete n ha).1
  | relocate n p =>
    obtain ⟨x, hx, hy⟩ := Option.map_eq_some_iff.1 h
    cases hy; exact (arena_attach (arena_detach n ha).1 hx).1
  | relocateUnlessThere n p =>
    obtain ⟨x, hx, hy⟩ := Option.map_eq_some_iff.1 h
    cases hy
    unfold relocateUnlessThere at hx
    split at hx
    · cases hx; exact ha
    · split at hx
      · cases hx; exact ha
      · exact (arena_attach (arena_detach n ha).1 hx).1
  | setAttribute i k v =>
    cases h
    unfold setAttribute
    simp only
    split
    · exact arena_claim (arena_modify ha _ _) _ _
    · exact arena_modify ha _ _
  | removeAttribute i k => cases h; exact arena_modify ha _ _
  | addClass i c => cases h; exact arena_modify ha _ _
  | setTemplate i f => cases h; exact arena_modify ha _ _
  | setText i v => cases h; exact arena_modify ha _ _
  | appendText i v => cases h; exact arena_modify ha _ _
  | hover leaf =>
    obtain ⟨x, hx, hy⟩ := Option.map_eq_some_iff.1 h
    cases hy
    obtain ⟨h1, h2, h3, _⟩ := setHovered_links hx
    exact arena_of_eq ha h1 h2 h3
  | focus n => cases h; exact arena_of_eq ha rfl rfl rfl

theorem arena_reach {P : Doc → Op → Prop} {d : Doc} (h : Reach P d) : Arena d := by
  induction h with
  | new => exact arena_new
  | step _ _ hs ih => exact arena_step ih hs

/-! ## No cycles among children -/

/-- no node is its own descendant -/
def NoCycle (R : Nat → Nat → Prop) : Prop := ∀ x, ¬ TransGen R x x

theorem transGen_add {R R' : Nat → Nat → Prop} {u v : Nat} (hR : ∀ a b, R' a b → R a b ∨ (a = u ∧ b = v))
    {a b : Nat} (h : TransGen R' a b) : TransGen R a b ∨ (ReflTransGen R a u ∧ ReflTransGen R v b) := by
  induction h with
  | single h =>
    rcases hR _ _ h with h | ⟨rfl, rfl⟩
    · exact Or.inl (.single h)
    · exact Or.inr ⟨.refl, .refl⟩
  | tail _ h ih =>
    rcases hR _ _ h with h | ⟨rfl, rfl⟩
    · rcases ih with ih | ⟨h1, h2⟩
      · exact Or.inl (.tail ih h)
      · exact Or.inr ⟨h1, .tail h2 h⟩
    · rcases ih with ih | ⟨h1, _⟩
      · exact Or.inr ⟨ih.to_reflTransGen, .refl⟩
      · exact Or.inr ⟨h1, .refl⟩

theorem noCycle_mono {R R' : Nat → Nat → Prop} (h : ∀ a b, R' a b → R a b) (hR : NoCycle R) : NoCycle R' :=
  fun x hx => hR x (TransGen.mono h x x hx)

theorem noCycle_add {R R' : Nat → Nat → Prop} {u v : Nat} (hR : ∀ a b, R' a b → R a b ∨ (a = u ∧ b = v))
    (hn : NoCycle R) (hne : u ≠ v) (hb : ¬ TransGen R v u) : NoCycle R' := by
  intro x hx
  rcases transGen_add hR hx with h | ⟨h1, h2⟩
  · exact hn x h
  · rcases reflTransGen_iff_eq_or_transGen.1 (h2.trans h1) with h | h
    · exact hne h
    · exact hb h

/-! ## The descendant test -/

/-- a chain of `f` steps down from `p` -/
def Path (d : Doc) : Nat → Nat → Prop
  | 0, _ => True
  | f + 1, p => ∃ c ∈ children d p, Path d f c

theorem anyChild_none {t : Nat} {rec : Nat → Option Bool} {l : List Nat} (h : anyChild t rec l = none) :
    ∃ c ∈ l, rec c = none := by
  induction l with
  | nil => cases h
  | cons c r ih =>
    unfold anyChild at h
    split at h
    · cases h
    · split at h
      · next hc => exact ⟨c, by simp, hc⟩
      · cases h
      · obtain ⟨c', h1, h2⟩ := ih h
        exact ⟨c', by simp [h1], h2⟩

theorem anyChild_true {t : Nat} {rec : Nat → Option Bool} {l : List Nat} (h : anyChild t rec l = some true) :
    ∃ c ∈ l, c = t ∨ rec c = some true := by
  induction l with
  | nil => cases h
  | cons c r ih =>
    unfold anyChild at h
    split at h
    · next hc => exact ⟨c, by simp, Or.inl hc⟩
    · split at h
      · cases h
      · next hc => exact ⟨c, by simp, Or.inr hc⟩
      · obtain ⟨c', h1, h2⟩ := ih h
        exact ⟨c', by simp [h1], h2⟩

theorem anyChild_false {t : Nat} {rec : Nat → Option Bool} {l : List Nat} (h : anyChild t rec l = some false) :
    ∀ c ∈ l, c ≠ t ∧ rec c = some false := by
  induction l with
  | nil => simp
  | cons c r ih =>
    unfold anyChild at h
    split at h
    · cases h
    · next hne =>
      split at h
      · cases h
      · cases h
      · next hc =>
        intro x hx
        rcases List.mem_cons.1 hx with rfl | hx
        · exact ⟨hne, hc⟩
        · exact ih h x hx

theorem hasRec_true {d : Doc} {t : Nat} : ∀ {f p : Nat}, hasRec d t f p = some true → TransGen (Edge d) p t := by
  intro f
  induction f with
  | zero => intro p h; cases h
  | succ f ih =>
    intro p h
    obtain ⟨c, hc, hr⟩ := anyChild_true h
    rcases hr with rfl | hr
    · exact .single hc
    · exact .head hc (ih hr)

theorem hasRec_false {d : Doc} {t : Nat} : ∀ {f p : Nat}, hasRec d t f p = some false → ¬ TransGen (Edge d) p t := by
  intro f
  induction f with
  | zero => intro p h; cases h
  | succ f ih =>
    intro p h hg
    have hall := anyChild_false h
    rcases TransGen.head'_iff.1 hg with ⟨c, hc, hr⟩
    obtain ⟨h1, h2⟩ := hall c hc
    rcases reflTransGen_iff_eq_or_transGen.1 hr with h | h
    · exact h1 h.symm
    · exact ih h2 h

theorem hasRec_none {d : Doc} {t : Nat} : ∀ {f p : Nat}, hasRec d t f p = none → Path d f p := by
  intro f
  induction f with
  | zero => intro p _; trivial
  | succ f ih =>
    intro p h
    obtain ⟨c, hc, hr⟩ := anyChild_none h
    exact ⟨c, hc, ih hr⟩

theorem lt_of_children {d : Doc} {p c : Nat} (h : c ∈ children d p) : live d p ∧ p < d.nodes.length := by
  have hl : live d p := by
    by_cases hl : live d p
    · exact hl
    · rw [children_of_not_live hl] at h; simp at h
  refine ⟨hl, ?_⟩
  unfold live nodeAt at hl
  by_cases hi : p < d.nodes.length
  · exact hi
  · rw [List.getElem?_eq_none (by omega)] at hl; simp at hl

theorem path_list {d : Doc} (hn : NoCycle (Edge d)) : ∀ {f p : Nat}, Path d f p →
    ∃ l : List Nat, l.length = f ∧ l.Nodup ∧ (∀ x ∈ l, x < d.nodes.length ∧ ReflTransGen (Edge d) p x) := by
  intro f
  induction f with
  | zero => intro p _; exact ⟨[], rfl, List.nodup_nil, by simp⟩
  | succ f ih =>
    intro p ⟨c, hc, hp⟩
    obtain ⟨l, h1, h2, h3⟩ := ih hp
    refine ⟨p :: l, by simp [h1], List.nodup_cons.2 ⟨fun hm => ?_, h2⟩, ?_⟩
    · exact hn p (TransGen.head' hc (h3 p hm).2)
    · intro x hx
      rcases List.mem_cons.1 hx with rfl | hx
      · exact ⟨(lt_of_children hc).2, .refl⟩
      · exact ⟨(h3 x hx).1, .head hc (h3 x hx).2⟩

theorem nodup_bound {l : List Nat} {n : Nat} (h : l.Nodup) (hb : ∀ x ∈ l, x < n) : l.length ≤ n := by
  have := (List.subperm_of_subset h (fun x hx => List.mem_range.2 (hb x hx)) : l.Subperm (List.range n)).length_le
  simpa using this

theorem hasRec_some {d : Doc} (hn : NoCycle (Edge d)) (t p : Nat) : hasRec d t (d.nodes.length + 1) p ≠ none := by
  intro h
  obtain ⟨l, h1, h2, h3⟩ := path_list hn (hasRec_none h)
  have := nodup_bound h2 (fun x hx => (h3 x hx).1)
  omega

theorem attach_total {d : Doc} (hn : NoCycle (Edge d)) (n p : Nat) (pos : Option Nat) :
    ∃ d', attach d n p pos = some d' := by
  unfold attach
  split
  · exact ⟨d, rfl⟩
  · split
    · next h => exact absurd h (hasRec_some hn p n)
    · exact ⟨d, rfl⟩
    · simp only
      generalize (if (nodeAt d p).isSome then hook (modify d p (insertChild n pos)) p else d) = d1
      split
      · exact ⟨_, rfl⟩
      · exact ⟨_, rfl⟩

theorem mem_inserted {l : List Nat} {c x : Nat} {pos : Option Nat} : x ∈ inserted l c pos ↔ x = c ∨ x ∈ l := by
  rw [(inserted_perm l c pos).mem_iff, List.mem_cons]

theorem noCycle_attach {d d' : Doc} {n p : Nat} {pos : Option Nat} (hn : NoCycle (Edge d))
    (h : attach d n p pos = some d') : NoCycle (Edge d') := by
  rcases attach_cases h with ⟨rfl, _⟩ | ⟨hne, hr, ha⟩
  · exact hn
  · refine noCycle_add (u := p) (v := n) ?_ hn hne (hasRec_false hr)
    intro a b hab
    unfold Edge at hab
    rw [ha.children] at hab
    split at hab
    · next h' =>
      rcases mem_inserted.1 hab with rfl | hm
      · exact Or.inr ⟨h'.1, rfl⟩
      · exact Or.inl (by unfold Edge; rw [h'.1]; exact hm)
    · exact Or.inl hab

theorem noCycle_detach {d : Doc} (n : Nat) (hn : NoCycle (Edge d)) : NoCycle (Edge (detach d n)) := by
  refine noCycle_mono ?_ hn
  intro a b hab
  unfold Edge at hab
  rw [(detached_detach d n).children] at hab
  split at hab
  · exact (List.mem_filter.1 hab).1
  · exact hab

theorem noCycle_delete {d : Doc} (n : Nat) (hn : NoCycle (Edge d)) : NoCycle (Edge (deleteNode d n)) := by
  by_cases hl : live d n
  · refine noCycle_mono ?_ hn
    intro a b hab
    unfold Edge at hab
    rw [(deleted_delete hl).children] at hab
    split at hab
    · simp at hab
    · split at hab
      · exact (List.mem_filter.1 hab).1
      · exact hab
  · rw [delete_dead hl]; exact hn

theorem noCycle_register {d : Doc} (data : Data) (hn : NoCycle (Edge d)) : NoCycle (Edge (register d data).1) := by
  refine noCycle_mono ?_ hn
  intro a b hab
  unfold Edge at hab
  rw [(created_register d data).children] at hab
  split at hab
  · simp at hab
  · exact hab

theorem noCycle_same {d d' : Doc} (h : SameLinks d d') (hn : NoCycle (Edge d)) : NoCycle (Edge d') := by
  refine noCycle_mono ?_ hn
  intro a b hab
  unfold Edge at hab ⊢
  rw [h.children] at hab; exact hab

theorem noCycle_step {d d' : Doc} {o : Op} {out : Option Nat} (hn : NoCycle (Edge d))
    (h : step d o = some (d', out)) : NoCycle (Edge d') := by
  cases eff_of_step h with
  | make data hd _ => rw [hd]; exact noCycle_register data hn
  | same hs _ => exact noCycle_same hs hn
  | attach n p pos _ ha => exact noCycle_attach hn ha
  | detach n _ hd => rw [hd]; exact noCycle_detach n hn
  | remove n _ hd => rw [hd]; exact noCycle_delete n hn
  | move n p _ ha => exact noCycle_attach (noCycle_detach n hn) ha

theorem children_new (i : Nat) : children Doc.new i = [] := by
  cases i with
  | zero => rfl
  | succ i => cases i <;> rfl

theorem noCycle_new : NoCycle (Edge Doc.new) := by
  intro x hx
  obtain ⟨c, hc, _⟩ := TransGen.head'_iff.1 hx
  unfold Edge at hc
  rw [children_new] at hc
  simp at hc

theorem noCycle_reach {P : Doc → Op → Prop} {d : Doc} (h : Reach P d) : NoCycle (Edge d) := by
  induction h with
  | new => exact noCycle_new
  | step _ _ hs ih => exact noCycle_step ih hs

/-! ## No cycles among parents -/

/-- a named parent was handed out, and lists the child as long as it exists -/
structure UpInv (d : Doc) : Prop where
  lt : ∀ c p, parent d c = some p → p < d.nextId
  mem : ∀ c p, parent d c = some p → live d p → c ∈ children d p

theorem upInv_attach {d d' : Doc} {n p : Nat} {pos : Option Nat} (ha : Arena d) (hi : UpInv d) (hp : p < d.nextId)
    (h : attach d n p pos = some d') : UpInv d' := by
  obtain ⟨_, hnext⟩ := arena_attach ha h
  rcases attach_cases h with ⟨rfl, _⟩ | ⟨hne, hr, hA⟩
  · exact hi
  · constructor
    · intro c q hq
      rw [hnext]
      rw [hA.parent] at hq
      split at hq
      · cases hq; exact hp
      · exact hi.lt c q hq
    · intro c q hq hl
      rw [hA.live] at hl
      rw [hA.parent] at hq
      rw [hA.children]
      split at hq
      · next hcn =>
        cases hq
        rw [if_pos ⟨rfl, hl⟩, hcn.1]
        exact mem_inserted.2 (Or.inl rfl)
      · have hm := hi.mem c q hq hl
        split
        · next hqp => rw [hqp.1] at hm; exact mem_inserted.2 (Or.inr hm)
        · exact hm

theorem upInv_detach {d : Doc} (n : Nat) (ha : Arena d) (hi : UpInv d) : UpInv (detach d n) := by
  have hD := detached_detach d n
  have hnext := (arena_detach n ha).2
  constructor
  · intro c q hq
    rw [hnext]
    rw [hD.parent] at hq
    split at hq
    · cases hq
    · exact hi.lt c q hq
  · intro c q hq hl
    rw [hD.live] at hl
    rw [hD.parent] at hq
    rw [hD.children]
    split at hq
    · cases hq
    · next hcn =>
      have hm := hi.mem c q hq hl
      split
      · exact List.mem_filter.2 ⟨hm, by simpa using hcn⟩
      · exact hm

theorem upInv_delete {d : Doc} (n : Nat) (ha : Arena d) (hi : UpInv d) : UpInv (deleteNode d n) := by
  by_cases hl : live d n
  · have hD := deleted_delete hl
    have hnext := (arena_delete n ha).2
    constructor
    · intro c q hq
      rw [hnext]
      rw [hD.parent] at hq
      split at hq
      · cases hq
      · exact hi.lt c q hq
    · intro c q hq hl'
      rw [hD.live] at hl'
      rw [hD.parent] at hq
      rw [hD.children, if_neg hl'.2]
      split at hq
      · cases hq
      · next hcn =>
        have hm := hi.mem c q hq hl'.1
        split
        · exact List.mem_filter.2 ⟨hm, by simpa using hcn⟩
        · exact hm
  · rw [delete_dead hl]; exact hi

theorem upInv_register {d : Doc} (data : Data) (ha : Arena d) (hi : UpInv d) : UpInv (register d data).1 := by
  have hC := created_register d data
  have hnext := (register_fields d data ha).2.1
  constructor
  · intro c q hq
    rw [hnext]
    rw [hC.parent] at hq
    split at hq
    · cases hq
    · have := hi.lt c q hq; omega
  · intro c q hq hl
    rw [hC.parent] at hq
    split at hq
    · cases hq
    · have hlt := hi.lt c q hq
      rw [hC.live] at hl
      rw [hC.children, if_neg (by omega)]
      exact hi.mem c q hq (hl.resolve_right (by omega))

theorem upInv_same {d d' : Doc} (h : SameLinks d d') (hn : d'.nextId = d.nextId) (hi : UpInv d) : UpInv d' := by
  constructor
  · intro c q hq; rw [hn]; exact hi.lt c q (by rw [← h.parent]; exact hq)
  · intro c q hq hl
    rw [h.children]
    exact hi.mem c q (by rw [← h.parent]; exact hq) ((h.live q).1 hl)

theorem upInv_step {d d' : Doc} {o : Op} {out : Option Nat} (ha : Arena d) (hi : UpInv d)
    (hO : ∀ n p pos, o = .attach n p pos ∨ o = .relocate n p ∨ o = .relocateUnlessThere n p → p < d.nextId)
    (h : step d o = some (d', out)) : UpInv d' := by
  cases eff_of_step h with
  | make data hd _ => rw [hd]; exact upInv_register data ha hi
  | same hs hn => exact upInv_same hs hn hi
  | attach n p pos ho hA => exact upInv_attach ha hi (hO n p pos (Or.inl ho)) hA
  | detach n _ hd => rw [hd]; exact upInv_detach n ha hi
  | remove n _ hd => rw [hd]; exact upInv_delete n ha hi
  | move n p ho hA =>
    refine upInv_attach (arena_detach n ha).1 (upInv_detach n ha hi) ?_ hA
    rw [(arena_detach n ha).2]
    exact hO n p none (Or.inr ho)

theorem parent_new (i : Nat) : parent Doc.new i = none := by
  cases i with
  | zero => rfl
  | succ i => cases i <;> rfl

theorem upInv_reach {d : Doc} (h : Reach Issued d) : UpInv d := by
  induction h with
  | new => exact ⟨fun c p h => (by rw [parent_new] at h; cases h), fun c p h => (by rw [parent_new] at h; cases h)⟩
  | step hr hP hs ih =>
    refine upInv_step (arena_reach hr) ih ?_ hs
    rintro n p pos (rfl | rfl | rfl) <;> exact hP p (by simp [Op.ids])

theorem live_of_parent {d : Doc} {c p : Nat} (h : parent d c = some p) : live d c := by
  by_cases hl : live d c
  · exact hl
  · rw [parent_of_not_live hl] at h; cases h

theorem up_edge {d : Doc} (hi : UpInv d) {x y : Nat} (h : TransGen (Up d) x y) (hl : live d y) :
    TransGen (Edge d) y x := by
  induction h with
  | single h => exact .single (hi.mem _ _ h hl)
  | tail _ hb ih => exact .head (hi.mem _ _ hb hl) (ih (live_of_parent hb))

theorem noCycle_up {d : Doc} (hn : NoCycle (Edge d)) (hi : UpInv d) : NoCycle (Up d) := by
  intro x hx
  obtain ⟨c, hc, _⟩ := TransGen.head'_iff.1 hx
  exact hn x (up_edge hi hx (live_of_parent hc))

/-- a chain of `f` steps up from `i` -/
def UpPath (d : Doc) : Nat → Nat → Prop
  | 0, _ => True
  | f + 1, i => ∃ p, parent d i = some p ∧ UpPath d f p

theorem climb_none {d : Doc} : ∀ {f i : Nat}, climb d f i = none → UpPath d f i := by
  intro f
  induction f with
  | zero => intro i _; trivial
  | succ f ih =>
    intro i h
    unfold climb at h
    split at h
    · next p hp => exact ⟨p, hp, ih (by simpa using h)⟩
    · cases h

theorem upPath_list {d : Doc} (hn : NoCycle (Up d)) : ∀ {f i : Nat}, UpPath d f i →
    ∃ l : List Nat, l.length = f ∧ l.Nodup ∧ (∀ x ∈ l, live d x ∧ ReflTransGen (Up d) i x) := by
  intro f
  induction f with
  | zero => intro i _; exact ⟨[], rfl, List.nodup_nil, by simp⟩
  | succ f ih =>
    intro i ⟨p, hp, hu⟩
    obtain ⟨l, h1, h2, h3⟩ := ih hu
    refine ⟨i :: l, by simp [h1], List.nodup_cons.2 ⟨fun hm => ?_, h2⟩, ?_⟩
    · exact hn i (TransGen.head' hp (h3 i hm).2)
    · intro x hx
      rcases List.mem_cons.1 hx with rfl | hx
      · exact ⟨live_of_parent hp, .refl⟩
      · exact ⟨(h3 x hx).1, .head hp (h3 x hx).2⟩

theorem climb_total {d : Doc} (ha : Arena d) (hn : NoCycle (Up d)) (i : Nat) :
    ∃ l, climb d (d.nodes.length + 2) i = some l := by
  cases h : climb d (d.nodes.length + 2) i with
  | some l => exact ⟨l, rfl⟩
  | none =>
    obtain ⟨l, h1, h2, h3⟩ := upPath_list hn (climb_none h)
    have := nodup_bound h2 (fun x hx => by have := ha.lt (h3 x hx).1; rw [← ha.len] at this; exact this)
    omega

theorem climb_mem {d : Doc} : ∀ {f i : Nat} {l : List Nat}, climb d f i = some l →
    ∀ x, x ∈ l ↔ ReflTransGen (Up d) i x := by
  intro f
  induction f with
  | zero => intro i l h; cases h
  | succ f ih =>
    intro i l h x
    unfold climb at h
    split at h
    · next p hp =>
      obtain ⟨r, hr, rfl⟩ := Option.map_eq_some_iff.1 h
      rw [List.mem_cons, ih hr x]
      constructor
      · rintro (rfl | h)
        · exact .refl
        · exact .head hp h
      · intro h
        rcases ReflTransGen.cases_head h with h | ⟨c, hc, h⟩
        · exact Or.inl h.symm
        · refine Or.inr ?_
          unfold Up at hc; rw [hp] at hc; cases hc; exact h
    · next hp =>
      cases h
      simp only [List.mem_singleton]
      constructor
      · rintro rfl; exact .refl
      · intro h
        rcases ReflTransGen.cases_head h with h | ⟨c, hc, h⟩
        · exact h.symm
        · unfold Up at hc; rw [hp] at hc; cases hc

end Verif.Dom
