import Verif.Dom.Lemmas4

namespace Verif.Dom
open Verif Verif.Map Relation

/-! ## Ids -/

/-- the id table against the id attributes `a`: entries are right -/
structure IdPre (a : Nat → Option Str) (d : Doc) : Prop where
  own : ∀ v n, look d.named v = some n → a n = some v
  valid : ∀ v n, look d.named v = some n → validId v = true
  by_ : ∀ i ids, look d.byNode i = some ids → ∀ v ∈ ids, look d.named v = some i

/-- … and complete -/
structure IdInv (a : Nat → Option Str) (d : Doc) : Prop extends IdPre a d where
  all : ∀ m w, a m = some w → validId w = true → (look d.named w).isSome = true

theorem idPre_trans {a a' : Nat → Option Str} {d : Doc} (h : IdPre a d)
    (hk : ∀ n v, validId v = true → a n = some v → a' n = some v) : IdPre a' d :=
  ⟨fun v n hv => hk n v (h.valid v n hv) (h.own v n hv), h.valid, h.by_⟩

theorem claim_inv {a : Nat → Option Str} {d : Doc} {i : Nat} {v : Str} (h : IdPre a d) (hi : a i = some v)
    (hall : ∀ m w, a m = some w → validId w = true → (look d.named w).isSome = true ∨ m = i) :
    IdInv a (claimId d v i) := by
  have hall' : ∀ m w, a m = some w → validId w = true → (look d.named w).isSome = true ∨ w = v := by
    intro m w hm hw
    rcases hall m w hm hw with h' | rfl
    · exact Or.inl h'
    · rw [hi] at hm; exact Or.inr (Option.some.inj hm).symm
  unfold claimId
  split
  · next hc =>
    rw [Bool.and_eq_true] at hc
    have hnone : look d.named v = none := by simpa using hc.2
    refine ⟨⟨?_, ?_, ?_⟩, ?_⟩
    · intro w n hw
      simp only [look_put] at hw
      split at hw
      · next hvw => cases hw; rw [← hvw]; exact hi
      · exact h.own w n hw
    · intro w n hw
      simp only [look_put] at hw
      split at hw
      · next hvw => rw [← hvw]; exact hc.1
      · exact h.valid w n hw
    · intro j ids hj w hw
      simp only [look_put] at hj ⊢
      split at hj
      · next hij =>
        cases hj
        rcases List.mem_append.1 hw with hw | hw
        · cases hb : look d.byNode i with
          | none => rw [hb] at hw; simp at hw
          | some l =>
            rw [hb] at hw
            have hn := h.by_ i l hb w hw
            rw [if_neg (fun hvw => by rw [hvw, hn] at hnone; cases hnone), hn, hij]
        · simp at hw; rw [if_pos hw.symm, hij]
      · have hn := h.by_ j ids hj w hw
        rw [if_neg (fun hvw => by rw [hvw, hn] at hnone; cases hnone), hn]
    · intro m w hm hw
      simp only [look_put]
      split
      · rfl
      · next hvw => exact (hall' m w hm hw).resolve_right (fun h => hvw h.symm)
  · next hc =>
    refine ⟨h, ?_⟩
    intro m w hm hw
    rcases hall' m w hm hw with h' | rfl
    · exact h'
    · rw [hw, Bool.true_and] at hc
      cases hl : look d.named w with
      | none => simp [hl] at hc
      | some _ => rfl

theorem foldl_del_nil {ids : List Str} (named : List (Str × Nat)) (h : ids = []) :
    ids.foldl (fun m v => del m v) named = named := by subst h; rfl

theorem release_inv {a : Nat → Option Str} {d : Doc} {i : Nat} (h : IdPre a d) (hi : a i = none)
    (hall : ∀ m w, a m = some w → validId w = true → (look d.named w).isSome = true ∨ m = i) :
    IdInv a (releaseIds d i) := by
  have hall' : ∀ m w, a m = some w → validId w = true → (look d.named w).isSome = true := by
    intro m w hm hw
    rcases hall m w hm hw with h' | rfl
    · exact h'
    · rw [hi] at hm; cases hm
  unfold releaseIds
  cases hb : look d.byNode i with
  | none => exact ⟨h, hall'⟩
  | some ids =>
    have hnil : ids = [] := by
      cases ids with
      | nil => rfl
      | cons v r =>
        have := h.own v i (h.by_ i _ hb v (by simp))
        rw [hi] at this; cases this
    simp only [foldl_del_nil d.named hnil]
    refine ⟨⟨h.own, h.valid, ?_⟩, hall'⟩
    intro j l hj
    simp only [look_del] at hj
    split at hj
    · cases hj
    · exact h.by_ j l hj

theorem hookNode_inv {a : Nat → Option Str} {d : Doc} {i : Nat} {n : Node} (h : IdPre a d)
    (hi : a i = (elemOf n).bind fun e => look e.attrs idKey)
    (hall : ∀ m w, a m = some w → validId w = true → (look d.named w).isSome = true ∨ m = i) :
    IdInv a (hookNode d i n) := by
  unfold hookNode
  cases he : elemOf n with
  | none =>
    rw [he] at hi
    refine ⟨h, fun m w hm hw => (hall m w hm hw).resolve_right ?_⟩
    rintro rfl
    rw [hi] at hm; cases hm
  | some e =>
    rw [he] at hi
    simp only [Option.bind_some] at hi
    simp only
    cases hv : look e.attrs idKey with
    | none => exact release_inv h (hi.trans hv) hall
    | some v => exact claim_inv h (hi.trans hv) hall

theorem idPre_congr {a : Nat → Option Str} {d d' : Doc} (h : IdPre a d) (h1 : d'.named = d.named)
    (h2 : d'.byNode = d.byNode) : IdPre a d' :=
  ⟨by rw [h1]; exact h.own, by rw [h1]; exact h.valid, by rw [h1, h2]; exact h.by_⟩

theorem idInv_congr {a : Nat → Option Str} {d d' : Doc} (h : IdInv a d) (h1 : d'.named = d.named)
    (h2 : d'.byNode = d.byNode) : IdInv a d' :=
  ⟨idPre_congr h.toIdPre h1 h2, by rw [h1]; exact h.all⟩

/-- the id attributes of a document -/
def ids (d : Doc) (n : Nat) : Option Str := attr d n idKey

theorem ids_eq (d : Doc) (i : Nat) : ids d i = (nodeAt d i).bind fun n => (elemOf n).bind fun e => look e.attrs idKey := by
  unfold ids attr; cases nodeAt d i <;> rfl

theorem hook_inv {d : Doc} (i : Nat) (h : IdInv (ids d) d) : IdInv (ids d) (hook d i) := by
  unfold hook
  cases hn : nodeAt d i with
  | none => exact h
  | some n =>
    refine hookNode_inv h.toIdPre ?_ (fun m w hm hw => Or.inl (h.all m w hm hw))
    rw [ids_eq, hn]; rfl

theorem ids_of_data {d d' : Doc} (h : ∀ i, dataAt d' i = dataAt d i) : ids d' = ids d := by
  funext i; unfold ids; rw [attr_of_data, attr_of_data, h]

/-- changing links of one node and running the hook keeps the table -/
theorem relink_inv {d : Doc} (i : Nat) (f : Node → Node) (hf : ∀ n, (f n).data = n.data) (h : IdInv (ids d) d) :
    IdInv (ids (hook (modify d i f) i)) (hook (modify d i f) i) := by
  have h1 : ids (hook (modify d i f) i) = ids d :=
    ids_of_data fun j => by rw [dataAt_hook, dataAt_modify_same d i f hf]
  have h2 : ids (modify d i f) = ids d := ids_of_data fun j => dataAt_modify_same d i f hf j
  rw [h1]
  have h3 : IdInv (ids (modify d i f)) (modify d i f) := by rw [h2]; exact idInv_congr h rfl rfl
  have := hook_inv i h3
  rwa [h2] at this

theorem attach_inv {d d' : Doc} {n p : Nat} {pos : Option Nat} (h : attach d n p pos = some d')
    (hi : IdInv (ids d) d) : IdInv (ids d') d' := by
  unfold attach at h
  split at h
  · cases h; exact hi
  · split at h
    · cases h
    · cases h; exact hi
    · simp only at h
      have key : ∀ d1, (if (nodeAt d p).isSome then hook (modify d p (insertChild n pos)) p else d) = d1 →
          IdInv (ids d1) d1 := by
        intro d1 hd
        split at hd
        · subst hd; exact relink_inv p _ (insertChild_data n pos) hi
        · subst hd; exact hi
      generalize hd1 : (if (nodeAt d p).isSome then hook (modify d p (insertChild n pos)) p else d) = d1 at h
      have k := key d1 hd1
      split at h
      · cases h; exact relink_inv n _ (fun _ => rfl) k
      · cases h; exact k

theorem detach_inv {d : Doc} (n : Nat) (hi : IdInv (ids d) d) : IdInv (ids (detach d n)) (detach d n) := by
  unfold detach
  split
  · exact hi
  · next p _ =>
    simp only
    have key : ∀ d1, (if (nodeAt d p).isSome then hook (modify d p (removeChild n)) p else d) = d1 →
        IdInv (ids d1) d1 := by
      intro d1 hd
      split at hd
      · subst hd; exact relink_inv p _ (fun _ => rfl) hi
      · subst hd; exact hi
    generalize hd1 : (if (nodeAt d p).isSome then hook (modify d p (removeChild n)) p else d) = d1
    exact relink_inv n _ (fun _ => rfl) (key d1 hd1)

theorem unlist_inv {d : Doc} (n : Nat) (hi : IdInv (ids d) d) : IdInv (ids (unlist d n)) (unlist d n) := by
  unfold unlist
  split
  · split
    · exact relink_inv _ _ (fun _ => rfl) hi
    · exact hi
  · exact hi

theorem dropNode_tables (d : Doc) (i : Nat) : (dropNode d i).named = d.named ∧ (dropNode d i).byNode = d.byNode := by
  unfold dropNode; split <;> exact ⟨rfl, rfl⟩

theorem putNode_tables (d : Doc) (i : Nat) (n : Node) :
    (putNode d i n).named = d.named ∧ (putNode d i n).byNode = d.byNode := ⟨rfl, rfl⟩

theorem register_inv {d : Doc} (data : Data) (ha : Arena d) (hi : IdInv (ids d) d) :
    IdInv (ids (register d data).1) (register d data).1 := by
  have hids : ∀ j, ids (register d data).1 j = if d.nextId = j then
      (elemOf ⟨none, [], data⟩).bind (fun e => look e.attrs idKey) else ids d j := by
    intro j
    rw [ids_eq, nodeAt_register]
    split
    · rfl
    · rw [ids_eq]
  have hnew : ids d d.nextId = none := by
    rw [ids_eq]
    cases hn : nodeAt d d.nextId with
    | none => rfl
    | some n => exact absurd (ha.lt (by unfold live; rw [hn]; rfl)) (Nat.lt_irrefl _)
  have hpre : IdPre (ids (register d data).1) d := by
    refine idPre_trans hi.toIdPre (fun n v _ hn => ?_)
    rw [hids, if_neg (fun h => by rw [← h, hnew] at hn; cases hn)]; exact hn
  have hmain : IdInv (ids (register d data).1)
      (hookNode { d with nextId := d.nextId + 1 } d.nextId ⟨none, [], data⟩) := by
    refine hookNode_inv (idPre_congr hpre rfl rfl) (by rw [hids, if_pos rfl]) ?_
    intro m w hm hw
    rw [hids] at hm
    split at hm
    · next h => exact Or.inr h.symm
    · exact Or.inl (hi.all m w hm hw)
  exact idInv_congr hmain rfl rfl

theorem ids_elem_modify (d : Doc) (i : Nat) (f : Elem → Elem) (j : Nat) :
    ids (modify d i (onElem f)) j =
      if i = j then (((nodeAt d j).bind elemOf).map f).bind (fun e => look e.attrs idKey) else ids d j := by
  unfold ids attr; rw [elem_modify]; split <;> rfl

theorem idInv_step {d d' : Doc} {o : Op} {out : Option Nat} (ha : Arena d) (hi : IdInv (ids d) d) (hK : KeepsIds d o)
    (h : step d o = some (d', out)) : IdInv (ids d') d' := by
  have hk : ∀ n v, validId v = true → ids d n = some v → ids d' n = some v := hK d' out h
  cases o with
  | createElement a b c => simp only [step] at h; cases h; exact register_inv _ ha hi
  | createText a => simp only [step] at h; cases h; exact register_inv _ ha hi
  | createComment a => simp only [step] at h; cases h; exact register_inv _ ha hi
  | createDoctype a b c => simp only [step] at h; cases h; exact register_inv _ ha hi
  | clone i =>
    simp only [step] at h
    split at h
    · cases h; exact register_inv _ ha hi
    · cases h; exact hi
  | attach n p pos =>
    obtain ⟨x, hx, hy⟩ := Option.map_eq_some_iff.1 h
    cases hy; exact attach_inv hx hi
  | detach n => cases h; exact detach_inv n hi
  | remove n =>
    simp only [step, Option.some.injEq, Prod.mk.injEq] at h
    obtain ⟨h, _⟩ := h
    subst h
    by_cases hl : live d n
    · have hu := unlist_inv n hi
      have hue : ids (unlist d n) = ids d := ids_of_data (dataAt_unlist d n)
      have hids : ∀ j, ids (deleteNode d n) j = if n = j then none else ids d j := by
        intro j
        unfold ids
        rw [attr_of_data, dataAt_delete]
        split
        · rfl
        · rw [attr_of_data]
      rw [hue] at hu
      have e : deleteNode d n = dropNode (unlist d n) n := by
        unfold deleteNode; unfold live at hl; rw [if_pos hl]
      have hpre := idPre_trans hu.toIdPre hk
      refine ⟨?_, ?_⟩
      · rw [e] at hpre ⊢
        exact idPre_congr hpre (dropNode_tables _ _).1 (dropNode_tables _ _).2
      · intro m w hm hw
        rw [hids] at hm
        split at hm
        · cases hm
        · rw [e, (dropNode_tables _ _).1]; exact hu.all m w hm hw
    · rw [delete_dead hl]; exact hi
  | relocate n p =>
    obtain ⟨x, hx, hy⟩ := Option.map_eq_some_iff.1 h
    cases hy; exact attach_inv hx (detach_inv n hi)
  | relocateUnlessThere n p =>
    obtain ⟨x, hx, hy⟩ := Option.map_eq_some_iff.1 h
    cases hy
    unfold relocateUnlessThere at hx
    split at hx
    · cases hx; exact hi
    · split at hx
      · cases hx; exact hi
      · exact attach_inv hx (detach_inv n hi)
  | setAttribute i k v =>
    simp only [step, Option.some.injEq, Prod.mk.injEq] at h
    obtain ⟨h, _⟩ := h
    subst h
    have hids : ids (setAttribute d i k v) = ids (modify d i (onElem fun e => e.addAttr k v)) := by
      funext j; unfold ids attr; rw [elem_setAttribute, elem_modify]
    rw [hids] at hk ⊢
    have hpre := idPre_trans hi.toIdPre hk
    have hlook : ∀ e : Elem, look (e.addAttr k v).attrs idKey = if k = idKey then some v else look e.attrs idKey := by
      intro e
      unfold Elem.addAttr
      simp only
      split <;> simp only [look_put]
    have hall : ∀ m w, ids (modify d i (onElem fun e => e.addAttr k v)) m = some w → validId w = true →
        (look d.named w).isSome = true ∨ (m = i ∧ k = idKey) := by
      intro m w hm hw
      rw [ids_elem_modify] at hm
      split at hm
      · next him =>
        subst him
        by_cases hkk : k = idKey
        · exact Or.inr ⟨rfl, hkk⟩
        · left
          refine hi.all i w ?_ hw
          unfold ids attr
          cases he : (nodeAt d i).bind elemOf with
          | none => rw [he] at hm; cases hm
          | some e =>
            rw [he] at hm
            simp only [Option.map_some, Option.bind_some, hlook, if_neg hkk] at hm
            exact hm
      · exact Or.inl (hi.all m w hm hw)
    unfold setAttribute
    simp only
    by_cases hc : (((nodeAt d i).bind elemOf).isSome && decide (k = idKey)) = true
    · rw [if_pos hc]
      rw [Bool.and_eq_true, decide_eq_true_eq] at hc
      obtain ⟨hc1, hkk⟩ := hc
      refine claim_inv (idPre_congr hpre rfl rfl) ?_ (fun m w hm hw => (hall m w hm hw).imp id And.left)
      rw [ids_elem_modify, if_pos rfl]
      obtain ⟨e, he⟩ := Option.isSome_iff_exists.1 hc1
      rw [he]
      simp only [Option.map_some, Option.bind_some, hlook, if_pos hkk]
    · rw [if_neg hc]
      refine ⟨idPre_congr hpre rfl rfl, fun m w hm hw => ?_⟩
      rcases hall m w hm hw with h' | ⟨rfl, hkk⟩
      · exact h'
      · exfalso
        rw [ids_elem_modify, if_pos rfl] at hm
        cases he : (nodeAt d m).bind elemOf with
        | none => rw [he] at hm; cases hm
        | some e => exact hc (by rw [he, hkk]; simp)
  | removeAttribute i k =>
    simp only [step, Option.some.injEq, Prod.mk.injEq] at h
    obtain ⟨h, _⟩ := h
    subst h
    unfold removeAttribute at hk ⊢
    refine ⟨idPre_congr (idPre_trans hi.toIdPre hk) rfl rfl, fun m w hm hw => ?_⟩
    refine hi.all m w ?_ hw
    rw [ids_elem_modify] at hm
    split at hm
    · unfold ids attr
      cases he : (nodeAt d m).bind elemOf with
      | none => rw [he] at hm; cases hm
      | some e =>
        rw [he] at hm
        simp only [Option.map_some, Option.bind_some, Elem.removeAttr, look_del] at hm
        split at hm
        · cases hm
        · exact hm
    · exact hm
  | addClass i c =>
    cases h
    have : ids (addClass d i c) = ids d := by
      funext j; unfold addClass; rw [ids_elem_modify]; unfold ids attr
      split
      · cases (nodeAt d j).bind elemOf <;> rfl
      · rfl
    rw [this]; exact idInv_congr hi rfl rfl
  | setTemplate i f =>
    cases h
    have : ids (setTemplate d i f) = ids d := by
      funext j; unfold setTemplate; rw [ids_elem_modify]; unfold ids attr
      split
      · cases (nodeAt d j).bind elemOf <;> rfl
      · rfl
    rw [this]; exact idInv_congr hi rfl rfl
  | setText i v =>
    cases h
    have : ids (modify d i (onText fun _ => v)) = ids d := by funext j; unfold ids attr; rw [elem_text]
    rw [this]; exact idInv_congr hi rfl rfl
  | appendText i v =>
    cases h
    have : ids (modify d i (onText fun t => t ++ v)) = ids d := by funext j; unfold ids attr; rw [elem_text]
    rw [this]; exact idInv_congr hi rfl rfl
  | hover leaf =>
    obtain ⟨x, hx, hy⟩ := Option.map_eq_some_iff.1 h
    cases hy
    obtain ⟨h1, _, _, h2, h3⟩ := setHovered_links hx
    have : ids d' = ids d := by funext j; unfold ids attr; rw [nodeAt_congr h1]
    rw [this]; exact idInv_congr hi h2 h3
  | focus n => cases h; exact idInv_congr hi rfl rfl

theorem idInv_new : IdInv (ids Doc.new) Doc.new := by
  refine ⟨⟨fun v n h => (by cases h), fun v n h => (by cases h), fun i l h => (by cases h)⟩, fun m w hm => ?_⟩
  rw [ids_eq] at hm
  cases m with
  | zero => cases hm
  | succ m => cases m <;> cases hm

theorem idInv_reach {d : Doc} (h : Reach KeepsIds d) : IdInv (ids d) d := by
  induction h with
  | new => exact idInv_new
  | step hr hP hs ih => exact idInv_step (arena_reach hr) ih hP hs

/-! ## Freshness -/

theorem step_nextId {d d' : Doc} {o : Op} {out : Option Nat} (ha : Arena d) (h : step d o = some (d', out)) :
    d.nextId ≤ d'.nextId := by
  cases eff_of_step h with
  | make data hd _ => rw [hd, (register_fields d data ha).2.1]; omega
  | same _ hn => omega
  | attach n p pos _ hA => rw [(arena_attach ha hA).2]; exact Nat.le_refl _
  | detach n _ hd => rw [hd, (arena_detach n ha).2]; exact Nat.le_refl _
  | remove n _ hd => rw [hd, (arena_delete n ha).2]; exact Nat.le_refl _
  | move n p _ hA => rw [(arena_attach (arena_detach n ha).1 hA).2, (arena_detach n ha).2]; exact Nat.le_refl _

theorem attach_live {d d' : Doc} {n p : Nat} {pos : Option Nat} (h : attach d n p pos = some d') (i : Nat) :
    live d' i ↔ live d i := by
  rcases attach_cases h with ⟨rfl, _⟩ | ⟨_, _, hA⟩
  · exact Iff.rfl
  · exact hA.live i

/-- a call makes no missing node with an old id exist -/
theorem step_dead {d d' : Doc} {o : Op} {out : Option Nat} (h : step d o = some (d', out))
    {i : Nat} (hlt : i < d.nextId) (hd : ¬ live d i) : ¬ live d' i := by
  cases eff_of_step h with
  | make data hd' _ =>
    rw [hd', (created_register d data).live]
    rintro (h | h)
    · exact hd h
    · omega
  | same hs _ => rw [hs.live]; exact hd
  | attach n p pos _ hA => rw [attach_live hA]; exact hd
  | detach n _ hd' => rw [hd', (detached_detach d n).live]; exact hd
  | remove n _ hd' =>
    rw [hd']
    by_cases hl : live d n
    · rw [(deleted_delete hl).live]; exact fun h => hd h.1
    · rw [delete_dead hl]; exact hd
  | move n p _ hA => rw [attach_live hA, (detached_detach d n).live]; exact hd

theorem later_facts {d d' : Doc} (ha : Arena d) (h : ReflTransGen Next d d') :
    Arena d' ∧ d.nextId ≤ d'.nextId ∧ ∀ i, i < d.nextId → ¬ live d i → ¬ live d' i := by
  induction h with
  | refl => exact ⟨ha, Nat.le_refl _, fun _ _ h => h⟩
  | tail _ hn ih =>
    obtain ⟨o, out, hs⟩ := hn
    obtain ⟨h1, h2, h3⟩ := ih
    exact ⟨arena_step h1 hs, Nat.le_trans h2 (step_nextId h1 hs),
      fun i hi hd => step_dead hs (by omega) (h3 i hi hd)⟩

theorem create_out {d d' : Doc} {o : Op} {i : Nat} (ha : Arena d) (h : step d o = some (d', some i))
    (hc : ∀ j, o = .clone j → live d j) : i = d.nextId ∧ live d' i ∧ d'.nextId = d.nextId + 1 := by
  have main : ∀ data, d' = (register d data).1 → some i = some d.nextId →
      i = d.nextId ∧ live d' i ∧ d'.nextId = d.nextId + 1 := by
    intro data hd hi
    cases hi
    subst hd
    exact ⟨rfl, ((created_register d data).live _).2 (Or.inr rfl), (register_fields d data ha).2.1⟩
  cases o with
  | createElement a b c => simp only [step] at h; cases h; exact main _ rfl rfl
  | createText a => simp only [step] at h; cases h; exact main _ rfl rfl
  | createComment a => simp only [step] at h; cases h; exact main _ rfl rfl
  | createDoctype a b c => simp only [step] at h; cases h; exact main _ rfl rfl
  | clone j =>
    simp only [step] at h
    split at h
    · cases h; exact main _ rfl rfl
    · next hn => have := hc j rfl; unfold live at this; rw [hn] at this; cases this
  | attach n p pos => obtain ⟨x, _, hy⟩ := Option.map_eq_some_iff.1 h; cases hy
  | relocate n p => obtain ⟨x, _, hy⟩ := Option.map_eq_some_iff.1 h; cases hy
  | relocateUnlessThere n p => obtain ⟨x, _, hy⟩ := Option.map_eq_some_iff.1 h; cases hy
  | hover n => obtain ⟨x, _, hy⟩ := Option.map_eq_some_iff.1 h; cases hy
  | _ => cases h

theorem count_live (l : List (Option Node)) :
    (l.filter Option.isSome).length = ((List.range l.length).filter fun i => ((l[i]?).join).isSome).length := by
  induction l using List.reverseRecOn with
  | nil => rfl
  | append_singleton l x ih =>
    rw [List.filter_append, List.length_append, ih, List.length_append, List.length_singleton, List.range_succ,
      List.filter_append, List.length_append]
    congr 1
    · congr 1
      apply List.filter_congr
      intro i hi
      rw [List.getElem?_append_left (List.mem_range.1 hi)]
    · cases x <;> simp

/-! ## The queue -/

/-- creations among edits -/
def creates : Task → Nat
  | .insertAttribute _ _ _ => 0
  | _ => 1

/-- the creating edits with the ids they get, counting from `n` -/
def numbered (n : Nat) : List Task → List (Task × Nat)
  | [] => []
  | .insertAttribute _ _ _ :: r => numbered n r
  | t :: r => (t, n) :: numbered (n + 1) r

theorem numbered_create {t : Task} (h : creates t = 1) (n : Nat) (r : List Task) :
    numbered n (t :: r) = (t, n) :: numbered (n + 1) r := by
  cases t with
  | insertAttribute _ _ _ => cases h
  | _ => rfl

theorem numbered_append (n : Nat) (a b : List Task) :
    numbered n (a ++ b) = numbered n a ++ numbered (n + (a.map creates).sum) b := by
  induction a generalizing n with
  | nil => rfl
  | cons t r ih =>
    cases t with
    | insertAttribute _ _ _ => simp only [List.cons_append, numbered, ih, List.map_cons, creates, List.sum_cons, Nat.zero_add]
    | createElement a b c e =>
      simp only [List.cons_append, numbered, ih, List.map_cons, creates, List.sum_cons]; rw [Nat.add_assoc]
    | createText a b =>
      simp only [List.cons_append, numbered, ih, List.map_cons, creates, List.sum_cons]; rw [Nat.add_assoc]
    | createComment a b =>
      simp only [List.cons_append, numbered, ih, List.map_cons, creates, List.sum_cons]; rw [Nat.add_assoc]

/-- what one change keeps of the made nodes -/
structure Keeps (d d' : Doc) : Prop where
  text : ∀ i v, dataAt d i = some (.text v) → dataAt d' i = some (.text v)
  comment : ∀ i v, dataAt d i = some (.comment v) → dataAt d' i = some (.comment v)
  elem : ∀ i e, dataAt d i = some (.element e) → ∃ e', dataAt d' i = some (.element e') ∧ e'.name = e.name ∧ e'.ns = e.ns
  parent : ∀ i p, i < d.nextId → parent d i = some p → Dom.parent d' i = some p
  live : ∀ i, i < d.nextId → Dom.live d' i → Dom.live d i
  children : ∀ p c, c ∈ children d p → c ∈ Dom.children d' p

theorem madeAt_keeps {d d' : Doc} (h : Keeps d d') {t : Task} {i : Nat} (hi : i < d.nextId) (hm : MadeAt d i t) :
    MadeAt d' i t := by
  have hU : ∀ p, Under d i p → Under d' i p := fun p hu =>
    ⟨fun hp => h.parent i p hi (hu.1 hp), fun hp hl => h.children p i (hu.2 hp (h.live p (by omega) hl))⟩
  cases t with
  | createElement name ns p pos =>
    obtain ⟨⟨e, h1, h2, h3⟩, hu⟩ := hm
    obtain ⟨e', k1, k2, k3⟩ := h.elem i e h1
    exact ⟨⟨e', k1, k2.trans h2, k3.trans h3⟩, hU p hu⟩
  | createText v p => exact ⟨h.text i v hm.1, hU p hm.2⟩
  | createComment v p => exact ⟨h.comment i v hm.1, hU p hm.2⟩
  | insertAttribute k v e => exact hm

/-- registering and attaching a new node -/
theorem make_attach {d : Doc} (ha : Arena d) (hn : NoCycle (Edge d)) (data : Data) (p : Nat) (pos : Option Nat) :
    ∃ d', attach (register d data).1 (register d data).2 p pos = some d' ∧ Arena d' ∧ NoCycle (Edge d') ∧
      d'.nextId = d.nextId + 1 ∧ dataAt d' d.nextId = some data ∧ Under d' d.nextId p ∧ Keeps d d' := by
  have ha1 := arena_register ha data
  have hn1 := noCycle_register data hn
  have hC := created_register d data
  have hnext := (register_fields d data ha).2.1
  rw [register_snd]
  obtain ⟨d', hd'⟩ := attach_total hn1 d.nextId p pos
  refine ⟨d', hd', (arena_attach ha1 hd').1, noCycle_attach hn1 hd', (arena_attach ha1 hd').2.trans hnext, ?_, ?_, ?_⟩
  · rw [dataAt_attach hd', dataAt_register, if_pos rfl]
  · rcases attach_cases hd' with ⟨rfl, hr⟩ | ⟨hne, _, hA⟩
    · rcases hr with rfl | hr
      · exact ⟨fun h => absurd rfl h, fun h => absurd h (Nat.lt_irrefl _)⟩
      · obtain ⟨c, hc, _⟩ := TransGen.head'_iff.1 (hasRec_true hr)
        unfold Edge at hc
        rw [hC.children, if_pos rfl] at hc
        simp at hc
    · refine ⟨fun _ => ?_, fun _ hl => ?_⟩
      · rw [hA.parent, if_pos ⟨rfl, (hC.live _).2 (Or.inr rfl)⟩]
      · rw [hA.children, if_pos ⟨rfl, (hA.live p).1 hl⟩]
        exact mem_inserted.2 (Or.inl rfl)
  · have hdat : ∀ i x, dataAt d i = some x → dataAt d' i = some x := by
      intro i x hx
      rw [dataAt_attach hd', dataAt_register]
      split
      · next h =>
        subst h
        have : live d d.nextId := by
          unfold live; unfold dataAt at hx; cases hh : nodeAt d d.nextId <;> simp_all
        exact absurd (ha.lt this) (Nat.lt_irrefl _)
      · exact hx
    refine ⟨fun i v => hdat i _, fun i v => hdat i _, fun i e he => ⟨e, hdat i _ he, rfl, rfl⟩, ?_, ?_, ?_⟩
    · intro i q hi hq
      have h1 : parent (register d data).1 i = some q := by rw [hC.parent, if_neg (by omega)]; exact hq
      rcases attach_cases hd' with ⟨rfl, _⟩ | ⟨_, _, hA⟩
      · exact h1
      · rw [hA.parent, if_neg (fun h => by have := h.1; omega)]; exact h1
    · intro i hi hl
      exact ((hC.live i).1 ((attach_live hd' i).1 hl)).resolve_right (by omega)
    · intro q c hc
      have h1 : c ∈ children (register d data).1 q := by
        rw [hC.children]
        split
        · next h =>
          subst h
          exact absurd (ha.lt (lt_of_children hc).1) (Nat.lt_irrefl _)
        · exact hc
      rcases attach_cases hd' with ⟨rfl, _⟩ | ⟨_, _, hA⟩
      · exact h1
      · rw [hA.children]
        split
        · next h => rw [h.1] at h1; exact mem_inserted.2 (Or.inr h1)
        · exact h1

theorem dataAt_claim (d : Doc) (v : Str) (i j : Nat) : dataAt (claimId d v i) j = dataAt d j := by
  unfold dataAt; rw [nodeAt_claim]

theorem dataAt_setAttribute (d : Doc) (i : Nat) (k v : Str) (j : Nat) :
    dataAt (setAttribute d i k v) j = dataAt (modify d i (onElem fun e => e.addAttr k v)) j := by
  unfold setAttribute
  simp only
  split
  · rw [dataAt_claim]
  · rfl

theorem addAttr_name (e : Elem) (k v : Str) : (e.addAttr k v).name = e.name ∧ (e.addAttr k v).ns = e.ns := by
  unfold Elem.addAttr; simp only; split <;> exact ⟨rfl, rfl⟩

theorem dataAt_onElem (d : Doc) (i : Nat) (f : Elem → Elem) (j : Nat) {x : Data} (h : dataAt d j = some x) :
    dataAt (modify d i (onElem f)) j = some x ∨ ∃ e, x = .element e ∧ dataAt (modify d i (onElem f)) j = some (.element (f e)) := by
  unfold dataAt at h ⊢
  obtain ⟨n, hn, rfl⟩ := Option.map_eq_some_iff.1 h
  rw [nodeAt_modify]
  split
  · rw [hn]
    obtain ⟨p, cs, data⟩ := n
    cases data with
    | element e => exact Or.inr ⟨e, rfl, rfl⟩
    | _ => exact Or.inl rfl
  · rw [hn]; exact Or.inl rfl

theorem keeps_setAttribute (d : Doc) (i : Nat) (k v : Str) : Keeps d (setAttribute d i k v) := by
  have hs := sameLinks_setAttribute d i k v
  have key : ∀ j x, dataAt d j = some x → dataAt (setAttribute d i k v) j = some x ∨
      ∃ e, x = .element e ∧ dataAt (setAttribute d i k v) j = some (.element (e.addAttr k v)) := by
    intro j x hx
    rw [dataAt_setAttribute]
    exact dataAt_onElem d i _ j hx
  refine ⟨?_, ?_, ?_, fun j p _ hp => by rw [hs.parent]; exact hp, fun j _ hl => (hs.live j).1 hl,
    fun p c hc => by rw [hs.children]; exact hc⟩
  · intro j t ht
    rcases key j _ ht with h | ⟨e, h, _⟩
    · exact h
    · cases h
  · intro j t ht
    rcases key j _ ht with h | ⟨e, h, _⟩
    · exact h
    · cases h
  · intro j e he
    rcases key j _ he with h | ⟨e', h, h'⟩
    · exact ⟨e, h, rfl, rfl⟩
    · cases h; exact ⟨_, h', (addAttr_name e k v).1, (addAttr_name e k v).2⟩

theorem keeps_refl (d : Doc) : Keeps d d :=
  ⟨fun _ _ h => h, fun _ _ h => h, fun _ e h => ⟨e, h, rfl, rfl⟩, fun _ _ _ h => h, fun _ _ h => h, fun _ _ h => h⟩

theorem runTask_facts {d : Doc} (ha : Arena d) (hn : NoCycle (Edge d)) (t : Task) :
    ∃ d', runTask d t = some d' ∧ Arena d' ∧ NoCycle (Edge d') ∧ d'.nextId = d.nextId + creates t ∧
      (creates t = 1 → MadeAt d' d.nextId t) ∧ Keeps d d' := by
  cases t with
  | createElement name ns p pos =>
    obtain ⟨d', h1, h2, h3, h4, h5, h6, h7⟩ := make_attach ha hn (elementData name ns []) p pos
    exact ⟨d', h1, h2, h3, h4, fun _ => ⟨⟨_, h5, rfl, rfl⟩, h6⟩, h7⟩
  | createText v p =>
    obtain ⟨d', h1, h2, h3, h4, h5, h6, h7⟩ := make_attach ha hn (.text v) p none
    exact ⟨d', h1, h2, h3, h4, fun _ => ⟨h5, h6⟩, h7⟩
  | createComment v p =>
    obtain ⟨d', h1, h2, h3, h4, h5, h6, h7⟩ := make_attach ha hn (.comment v) p none
    exact ⟨d', h1, h2, h3, h4, fun _ => ⟨h5, h6⟩, h7⟩
  | insertAttribute k v i =>
    have hsame : ∃ d', (some d : Option Doc) = some d' ∧ Arena d' ∧ NoCycle (Edge d') ∧
        d'.nextId = d.nextId + creates (.insertAttribute k v i) ∧
        (creates (.insertAttribute k v i) = 1 → MadeAt d' d.nextId (.insertAttribute k v i)) ∧ Keeps d d' :=
      ⟨d, rfl, ha, hn, rfl, fun h => (by cases h), keeps_refl d⟩
    simp only [runTask]
    split
    · exact hsame
    · split
      · exact hsame
      · split
        · refine ⟨_, rfl, ?_, noCycle_same (sameLinks_setAttribute d i k v) hn, setAttribute_nextId d i k v,
            fun h => (by cases h), keeps_setAttribute d i k v⟩
          exact arena_step ha (o := .setAttribute i k v) (out := none) rfl
        · exact hsame

theorem runTasks_facts : ∀ (ts : List Task) {d : Doc}, Arena d → NoCycle (Edge d) →
    ∃ d', runTasks d ts = some d' ∧ Arena d' ∧ NoCycle (Edge d') ∧ d'.nextId = d.nextId + (ts.map creates).sum ∧
      (∀ x ∈ numbered d.nextId ts, MadeAt d' x.2 x.1 ∧ d.nextId ≤ x.2 ∧ x.2 < d'.nextId) ∧
      (∀ t i, i < d.nextId → MadeAt d i t → MadeAt d' i t) := by
  intro ts
  induction ts with
  | nil => intro d ha hn; exact ⟨d, rfl, ha, hn, rfl, by simp [numbered], fun _ _ _ h => h⟩
  | cons t r ih =>
    intro d ha hn
    obtain ⟨d1, h1, h2, h3, h4, h5, h6⟩ := runTask_facts ha hn t
    obtain ⟨d2, k1, k2, k3, k4, k5, k6⟩ := ih h2 h3
    refine ⟨d2, by simp only [runTasks, h1]; exact k1, k2, k3, ?_, ?_, ?_⟩
    · rw [k4, h4]; simp [Nat.add_assoc]
    · intro x hx
      by_cases hc : creates t = 1
      · rw [numbered_create hc] at hx
        rw [hc] at h4
        rcases List.mem_cons.1 hx with rfl | hx
        · refine ⟨k6 t _ (by omega) (h5 hc), Nat.le_refl _, ?_⟩
          simp only; rw [k4, h4]; omega
        · rw [← h4] at hx
          obtain ⟨m1, m2, m3⟩ := k5 x hx
          exact ⟨m1, by omega, m3⟩
      · cases t with
        | insertAttribute k v i =>
          simp only [numbered] at hx
          have h4' : d1.nextId = d.nextId := h4
          rw [← h4'] at hx
          obtain ⟨m1, m2, m3⟩ := k5 x hx
          exact ⟨m1, by omega, m3⟩
        | _ => exact absurd rfl hc
    · intro t' i hi hm
      exact k6 t' i (by omega) (madeAt_keeps h6 hi hm)

/-- the invariant of a session started when the next id was `n0` -/
structure QInv (n0 : Nat) (s : Session) : Prop where
  arena : Arena s.doc
  acyclic : NoCycle (Edge s.doc)
  next : s.queue.next = s.doc.nextId + (s.queue.tasks.map creates).sum
  from_ : n0 ≤ s.doc.nextId
  log : ∃ done, s.log = done ++ numbered s.doc.nextId s.queue.tasks ∧
    (∀ x ∈ done, MadeAt s.doc x.2 x.1 ∧ n0 ≤ x.2 ∧ x.2 < s.doc.nextId) ∧ (done.map Prod.snd).Pairwise (· < ·)

theorem numbered_ge (n : Nat) (ts : List Task) : ∀ x ∈ numbered n ts, n ≤ x.2 ∧ creates x.1 = 1 := by
  induction ts generalizing n with
  | nil => simp [numbered]
  | cons t r ih =>
    intro x hx
    by_cases hc : creates t = 1
    · rw [numbered_create hc] at hx
      rcases List.mem_cons.1 hx with rfl | hx
      · exact ⟨Nat.le_refl _, hc⟩
      · obtain ⟨h1, h2⟩ := ih (n + 1) x hx
        exact ⟨by omega, h2⟩
    · cases t with
      | insertAttribute k v i => exact ih n x hx
      | _ => exact absurd rfl hc

theorem numbered_increasing (n : Nat) (ts : List Task) : ((numbered n ts).map Prod.snd).Pairwise (· < ·) := by
  induction ts generalizing n with
  | nil => simp [numbered]
  | cons t r ih =>
    by_cases hc : creates t = 1
    · rw [numbered_create hc, List.map_cons, List.pairwise_cons]
      refine ⟨?_, ih (n + 1)⟩
      intro y hy
      obtain ⟨x, hx, rfl⟩ := List.mem_map.1 hy
      have := (numbered_ge (n + 1) r x hx).1
      simp only; omega
    · cases t with
      | insertAttribute k v i => exact ih n
      | _ => exact absurd rfl hc

theorem qinv_next {n0 : Nat} {s : Session} (h : QInv n0 s) (e : QEv) : ∃ s', s.next e = some s' ∧ QInv n0 s' ∧
    (e = .flush → s'.queue.tasks = []) := by
  cases e with
  | edit t =>
    refine ⟨_, rfl, ?_, fun h => by cases h⟩
    obtain ⟨done, h1, h2, h3⟩ := h.log
    have key : (enqueue s.queue t).1.tasks = s.queue.tasks ++ [t] ∧ (enqueue s.queue t).1.next = s.queue.next + creates t ∧
        logEntry t (enqueue s.queue t).2 = numbered s.queue.next [t] := by
      cases t <;> exact ⟨rfl, rfl, rfl⟩
    obtain ⟨k1, k2, k3⟩ := key
    refine ⟨h.arena, h.acyclic, ?_, h.from_, done, ?_, h2, h3⟩
    · simp only
      rw [k1, k2, h.next]; simp [Nat.add_assoc]
    · simp only
      rw [k1, k3, numbered_append, h1, h.next, List.append_assoc]
  | flush =>
    obtain ⟨done, h1, h2, h3⟩ := h.log
    obtain ⟨d', k1, k2, k3, k4, k5, k6⟩ := runTasks_facts s.queue.tasks h.arena h.acyclic
    refine ⟨⟨d', { s.queue with tasks := [] }, s.log⟩, ?_, ?_, fun _ => rfl⟩
    · simp only [Session.next, Dom.flush, k1, Option.map_some]
    · refine ⟨k2, k3, ?_, by have := h.from_; simp only; omega, s.log, ?_, ?_, ?_⟩
      · simp only [List.map_nil, List.sum_nil, Nat.add_zero]; rw [h.next, k4]
      · simp [numbered]
      · intro x hx
        rw [h1] at hx
        rcases List.mem_append.1 hx with hx | hx
        · obtain ⟨m1, m2, m3⟩ := h2 x hx
          exact ⟨k6 _ _ m3 m1, m2, by simp only; omega⟩
        · obtain ⟨m1, m2, m3⟩ := k5 x hx
          exact ⟨m1, by have := h.from_; omega, m3⟩
      · rw [h1, List.map_append, List.pairwise_append]
        refine ⟨h3, numbered_increasing _ _, ?_⟩
        intro a ha b hb
        obtain ⟨x, hx, rfl⟩ := List.mem_map.1 ha
        obtain ⟨y, hy, rfl⟩ := List.mem_map.1 hb
        have h4 := (h2 x hx).2.2
        have h5 := (numbered_ge _ _ y hy).1
        omega

theorem qinv_run {n0 : Nat} : ∀ (es : List QEv) {s : Session}, QInv n0 s → ∃ s', s.run es = some s' ∧ QInv n0 s' := by
  intro es
  induction es with
  | nil => intro s h; exact ⟨s, rfl, h⟩
  | cons e r ih =>
    intro s h
    obtain ⟨s1, h1, h2, _⟩ := qinv_next h e
    obtain ⟨s2, h3, h4⟩ := ih h2
    exact ⟨s2, by simp only [Session.run, h1, Option.bind_some, h3], h4⟩

theorem run_append (s : Session) (a b : List QEv) : s.run (a ++ b) = (s.run a).bind fun s' => s'.run b := by
  induction a generalizing s with
  | nil => rfl
  | cons e r ih =>
    simp only [List.cons_append, Session.run]
    cases s.next e with
    | none => rfl
    | some s' => exact ih s'

end Verif.Dom
