import Verif.Dom.Lemmas3

namespace Verif.Dom
open Verif Verif.Map Relation

/-! ## Words -/

theorem wordsFrom_iff (w : Str) : ∀ (s cur : Str), (∀ c ∈ cur, isWs c = false) →
    (w ∈ wordsFrom s cur ↔ IsWord w (cur ++ s)) := by
  intro s
  induction s with
  | nil =>
    intro cur hcur
    rw [List.append_nil]
    unfold wordsFrom
    constructor
    · intro h
      split at h
      · simp at h
      · next hne =>
        rw [List.mem_singleton] at h
        subst h
        exact ⟨hne, hcur, [], [], by simp, by simp, by simp⟩
    · rintro ⟨hne, hw, a, b, hv, ha, hb⟩
      have ha' : a = [] := by
        cases hl : a.getLast? with
        | none => exact List.getLast?_eq_none_iff.1 hl
        | some c =>
          have := hcur c (by rw [hv]; simp [List.mem_of_getLast? hl])
          rw [ha c hl] at this; cases this
      have hb' : b = [] := by
        cases b with
        | nil => rfl
        | cons c b =>
          have := hcur c (by rw [hv]; simp)
          rw [hb c rfl] at this; cases this
      subst ha' hb'
      simp only [List.nil_append, List.append_nil] at hv
      subst hv
      rw [if_neg hne]; simp
  | cons c r ih =>
    intro cur hcur
    unfold wordsFrom
    by_cases hc : isWs c = true
    · rw [if_pos hc]
      have ih0 := ih [] (by simp)
      rw [List.nil_append] at ih0
      have step1 : IsWord w (c :: r) ↔ IsWord w r := by
        constructor
        · rintro ⟨hne, hw, a, b, hv, ha, hb⟩
          cases a with
          | nil =>
            cases w with
            | nil => exact absurd rfl hne
            | cons x w =>
              simp only [List.nil_append, List.cons_append, List.cons.injEq] at hv
              have := hw x (by simp)
              rw [← hv.1, hc] at this; cases this
          | cons x a =>
            simp only [List.cons_append, List.cons.injEq] at hv
            refine ⟨hne, hw, a, b, hv.2, ?_, hb⟩
            intro y hy
            cases a with
            | nil => simp at hy
            | cons z a => exact ha y (by rw [List.getLast?_cons_cons]; exact hy)
        · rintro ⟨hne, hw, a, b, hv, ha, hb⟩
          refine ⟨hne, hw, c :: a, b, by rw [hv]; simp, ?_, hb⟩
          intro y hy
          cases a with
          | nil => simp at hy; rw [← hy]; exact hc
          | cons z a => exact ha y (by rw [List.getLast?_cons_cons] at hy; exact hy)
      by_cases hcur0 : cur = []
      · subst hcur0
        rw [if_pos rfl, ih0, List.nil_append, step1]
      · rw [if_neg hcur0, List.mem_cons, ih0]
        constructor
        · rintro (rfl | ⟨hne, hw, a, b, hv, ha, hb⟩)
          · refine ⟨hcur0, hcur, [], c :: r, by simp, by simp, ?_⟩
            intro y hy; simp at hy; rw [← hy]; exact hc
          · refine ⟨hne, hw, cur ++ c :: a, b, by rw [hv]; simp, ?_, hb⟩
            intro y hy
            rw [List.getLast?_append_of_ne_nil _ (by simp)] at hy
            cases a with
            | nil => simp at hy; rw [← hy]; exact hc
            | cons z a => exact ha y (by rw [List.getLast?_cons_cons] at hy; exact hy)
        · rintro ⟨hne, hw, a, b, hv, ha, hb⟩
          rw [List.append_assoc] at hv
          rcases List.append_eq_append_iff.1 hv with ⟨x, hx1, hx2⟩ | ⟨x, hx1, hx2⟩
          · -- `a` reaches over `cur`
            cases x with
            | nil =>
              -- `a = cur`: then the last letter of `cur` is white space
              rw [List.append_nil] at hx1
              subst hx1
              cases hl : a.getLast? with
              | none => exact absurd (List.getLast?_eq_none_iff.1 hl) hcur0
              | some y =>
                have := hcur y (List.mem_of_getLast? hl)
                rw [ha y hl] at this; cases this
            | cons y x =>
              right
              simp only [List.cons_append, List.cons.injEq] at hx2
              refine ⟨hne, hw, x, b, by rw [hx2.2]; simp, ?_, hb⟩
              intro z hz
              refine ha z ?_
              rw [hx1, List.getLast?_append_of_ne_nil _ (by simp)]
              cases x with
              | nil => simp at hz
              | cons u x => rw [List.getLast?_cons_cons]; exact hz
          · -- `a` is inside `cur`, so it is empty
            have ha' : a = [] := by
              cases hl : a.getLast? with
              | none => exact List.getLast?_eq_none_iff.1 hl
              | some y =>
                have := hcur y (by rw [hx1]; simp [List.mem_of_getLast? hl])
                rw [ha y hl] at this; cases this
            subst ha'
            left
            rw [List.nil_append] at hx1
            subst hx1
            rcases List.append_eq_append_iff.1 hx2 with ⟨y, hy1, hy2⟩ | ⟨y, hy1, hy2⟩
            · -- `cur = w ++ y`, `b = y ++ c :: r`
              cases y with
              | nil => simpa using hy1.symm
              | cons u y =>
                have h1 := hb u (by rw [hy2]; rfl)
                have h2 := hcur u (by rw [hy1]; simp)
                rw [h1] at h2; cases h2
            · -- `w = cur ++ y`, `c :: r = y ++ b`
              cases y with
              | nil => simpa using hy1
              | cons u y =>
                simp only [List.cons_append, List.cons.injEq] at hy2
                have := hw u (by rw [hy1]; simp)
                rw [← hy2.1, hc] at this; cases this
    · rw [if_neg hc, ih (cur ++ [c]) ?_]
      · simp
      · intro y hy
        rcases List.mem_append.1 hy with hy | hy
        · exact hcur y hy
        · simp at hy; rw [hy]; simpa using hc

theorem mem_words (w v : Str) : w ∈ words v ↔ IsWord w v := by
  unfold words
  rw [wordsFrom_iff w v [] (by simp), List.nil_append]

theorem look_foldl_classAdd (l : List Str) (m : List (Str × Bool)) (c : Str) :
    look (l.foldl classAdd m) c = if (look m c).isSome then look m c else if c ∈ l then some true else none := by
  induction l generalizing m with
  | nil => cases h : look m c <;> simp [h]
  | cons w r ih =>
    rw [List.foldl_cons, ih]
    unfold classAdd
    by_cases hw : (look m w).isSome = true
    · rw [if_pos hw]
      by_cases hc : (look m c).isSome = true
      · rw [if_pos hc, if_pos hc]
      · rw [if_neg hc, if_neg hc]
        have : c ≠ w := fun h => hc (h ▸ hw)
        simp [this]
    · rw [if_neg hw, look_put]
      by_cases hcw : w = c
      · subst hcw; simp [hw]
      · rw [if_neg hcw]
        have : c ≠ w := Ne.symm hcw
        simp [this]

theorem look_foldl_put (l : List Str) (m : List (Str × Bool)) (c : Str) :
    look (l.foldl (fun m w => put m w true) m) c = if c ∈ l then some true else look m c := by
  induction l generalizing m with
  | nil => simp
  | cons w r ih =>
    rw [List.foldl_cons, ih, look_put]
    by_cases hr : c ∈ r
    · simp [hr]
    · by_cases hcw : w = c
      · subst hcw; simp
      · have : c ≠ w := Ne.symm hcw
        simp [hr, hcw, this]

/-- the classes of an element are the words of its class attribute -/
def ClassOk (e : Elem) : Prop :=
  ∀ c, (look e.classes c).getD false = true ↔ ∃ v, look e.attrs classKey = some v ∧ IsWord c v

theorem classOk_addAttr {e : Elem} (k v : Str) (h : ClassOk e) : ClassOk (e.addAttr k v) := by
  intro c
  unfold Elem.addAttr
  simp only
  split
  · next hk =>
    subst hk
    simp only [look_foldl_classAdd, look_put, if_true]
    rw [← mem_words_iff_aux c v]
  · next hk =>
    simp only [look_put, if_neg hk]
    exact h c
where
  mem_words_iff_aux (c v : Str) : (((if (look ([] : List (Str × Bool)) c).isSome = true then look [] c
      else if c ∈ words v then some true else none).getD false = true)) ↔
      ∃ v', some v = some v' ∧ IsWord c v' := by
    have h0 : look ([] : List (Str × Bool)) c = none := rfl
    rw [h0]
    simp only [Option.isSome_none, Bool.false_eq_true, if_false, Option.some.injEq, exists_eq_left', ← mem_words]
    split <;> simp_all

theorem classOk_removeAttr {e : Elem} (k : Str) (h : ClassOk e)
    (hk : k = classKey → ∀ v w, look e.attrs classKey = some v → IsWord w v → w = v) : ClassOk (e.removeAttr k) := by
  intro c
  unfold Elem.removeAttr
  simp only [look_del]
  by_cases hkc : k = classKey
  · subst hkc
    simp only [if_true]
    constructor
    · intro hc
      exfalso
      cases hv : look e.attrs classKey with
      | none =>
        rw [hv] at hc
        simp only [dropValue] at hc
        obtain ⟨v, h1, _⟩ := (h c).1 hc
        rw [hv] at h1; cases h1
      | some v =>
        rw [hv] at hc
        simp only [dropValue, look_del] at hc
        split at hc
        · cases hc
        · next hne =>
          obtain ⟨v', h1, h2⟩ := (h c).1 hc
          rw [hv] at h1; cases h1
          exact hne (hk rfl v c hv h2)
    · rintro ⟨v, h1, _⟩; cases h1
  · rw [if_neg hkc, if_neg (Ne.symm hkc)]
    exact h c

theorem classOk_new (name ns : Str) (attrs : List (Str × Str)) (t : Option Nat) :
    ClassOk ⟨name, ns, attrs, ((look attrs classKey).map classFrom).getD [], t⟩ := by
  intro c
  simp only
  cases h : look attrs classKey with
  | none =>
    simp only [Option.map_none, Option.getD_none]
    constructor
    · intro h'; cases h'
    · rintro ⟨v, h', _⟩; cases h'
  | some v =>
    simp only [Option.map_some, Option.getD_some, classFrom, look_foldl_put, Option.some.injEq, exists_eq_left',
      ← mem_words]
    have h0 : look ([] : List (Str × Bool)) c = none := rfl
    rw [h0]
    split <;> simp_all

/-! ## Data through link changes -/

theorem dataAt_modify_same (d : Doc) (i : Nat) (f : Node → Node) (h : ∀ n, (f n).data = n.data) (j : Nat) :
    dataAt (modify d i f) j = dataAt d j := by
  unfold dataAt; rw [nodeAt_modify]
  split
  · cases nodeAt d j <;> simp [h]
  · rfl

theorem dataAt_hook (d : Doc) (i j : Nat) : dataAt (hook d i) j = dataAt d j := by
  unfold dataAt; rw [nodeAt_hook]

theorem insertChild_data (c : Nat) (pos : Option Nat) (n : Node) : (insertChild c pos n).data = n.data := by
  unfold insertChild
  cases pos with
  | none => rfl
  | some i => simp only; split <;> rfl

theorem dataAt_attach {d d' : Doc} {n p : Nat} {pos : Option Nat} (h : attach d n p pos = some d') (i : Nat) :
    dataAt d' i = dataAt d i := by
  unfold attach at h
  split at h
  · cases h; rfl
  · split at h
    · cases h
    · cases h; rfl
    · simp only at h
      have key : ∀ d1, (if (nodeAt d p).isSome then hook (modify d p (insertChild n pos)) p else d) = d1 →
          ∀ i, dataAt d1 i = dataAt d i := by
        intro d1 hd i
        split at hd
        · subst hd; rw [dataAt_hook, dataAt_modify_same _ _ _ (insertChild_data n pos)]
        · subst hd; rfl
      generalize hd1 : (if (nodeAt d p).isSome then hook (modify d p (insertChild n pos)) p else d) = d1 at h
      have k := key d1 hd1
      split at h
      · cases h; rw [dataAt_hook, dataAt_modify_same d1 n (setParent (some p)) (fun _ => rfl)]; exact k i
      · cases h; exact k i

theorem dataAt_detach (d : Doc) (n i : Nat) : dataAt (detach d n) i = dataAt d i := by
  unfold detach
  split
  · rfl
  · next p _ =>
    simp only
    have key : ∀ d1, (if (nodeAt d p).isSome then hook (modify d p (removeChild n)) p else d) = d1 →
        ∀ i, dataAt d1 i = dataAt d i := by
      intro d1 hd i
      split at hd
      · subst hd; rw [dataAt_hook, dataAt_modify_same d p (removeChild n) (fun _ => rfl)]
      · subst hd; rfl
    generalize hd1 : (if (nodeAt d p).isSome then hook (modify d p (removeChild n)) p else d) = d1
    rw [dataAt_hook, dataAt_modify_same d1 n (setParent none) (fun _ => rfl)]
    exact key d1 hd1 i

theorem dataAt_unlist (d : Doc) (n i : Nat) : dataAt (unlist d n) i = dataAt d i := by
  unfold unlist
  split
  · next p _ =>
    split
    · rw [dataAt_hook, dataAt_modify_same d p (removeChild n) (fun _ => rfl)]
    · rfl
  · rfl

theorem dataAt_delete (d : Doc) (n i : Nat) : dataAt (deleteNode d n) i = if n = i then none else dataAt d i := by
  unfold deleteNode
  split
  · unfold dataAt
    rw [nodeAt_drop]
    split
    · rfl
    · exact dataAt_unlist d n i
  · next h =>
    split
    · next hn => subst hn; unfold dataAt; cases hh : nodeAt d n <;> simp_all
    · rfl

theorem dataAt_register (d : Doc) (data : Data) (i : Nat) :
    dataAt (register d data).1 i = if d.nextId = i then some data else dataAt d i := by
  unfold dataAt; rw [nodeAt_register]; split <;> rfl

/-- the element data of a node's data -/
def elemData : Data → Option Elem
  | .element e => some e
  | _ => none

theorem elem_of_data (d : Doc) (i : Nat) : (nodeAt d i).bind elemOf = (dataAt d i).bind elemData := by
  unfold dataAt
  cases nodeAt d i with
  | none => rfl
  | some n => simp only [Option.bind_some, Option.map_some]; unfold elemOf elemData; cases n.data <;> rfl

theorem attr_of_data (d : Doc) (i : Nat) (k : Str) :
    attr d i k = ((dataAt d i).bind elemData).bind fun e => look e.attrs k := by
  unfold attr; rw [elem_of_data]

theorem elem_modify (d : Doc) (i : Nat) (f : Elem → Elem) (j : Nat) :
    (nodeAt (modify d i (onElem f)) j).bind elemOf =
      if i = j then ((nodeAt d j).bind elemOf).map f else (nodeAt d j).bind elemOf := by
  rw [nodeAt_modify]
  split
  · cases nodeAt d j with
    | none => rfl
    | some n =>
      simp only [Option.map_some, Option.bind_some]
      obtain ⟨p, cs, data⟩ := n
      cases data <;> rfl
  · rfl

theorem elem_text (d : Doc) (i : Nat) (f : Str → Str) (j : Nat) :
    (nodeAt (modify d i (onText f)) j).bind elemOf = (nodeAt d j).bind elemOf := by
  rw [nodeAt_modify]
  split
  · cases nodeAt d j with
    | none => rfl
    | some n =>
      simp only [Option.map_some, Option.bind_some]
      obtain ⟨p, cs, data⟩ := n
      cases data <;> rfl
  · rfl

theorem elem_claim (d : Doc) (v : Str) (i j : Nat) :
    (nodeAt (claimId d v i) j).bind elemOf = (nodeAt d j).bind elemOf := by rw [nodeAt_claim]

theorem elem_setAttribute (d : Doc) (i : Nat) (k v : Str) (j : Nat) :
    (nodeAt (setAttribute d i k v) j).bind elemOf =
      if i = j then ((nodeAt d j).bind elemOf).map (fun e => e.addAttr k v) else (nodeAt d j).bind elemOf := by
  unfold setAttribute
  simp only
  split
  · rw [elem_claim, elem_modify]
  · rw [elem_modify]

/-! ## Classes through a history -/

/-- every element satisfies `Q` -/
def AllElems (Q : Elem → Prop) (d : Doc) : Prop := ∀ i e, (nodeAt d i).bind elemOf = some e → Q e

theorem allElems_of_data {Q : Elem → Prop} {d d' : Doc} (h : AllElems Q d)
    (hd : ∀ i, dataAt d' i = dataAt d i ∨ dataAt d' i = none) : AllElems Q d' := by
  intro i e he
  rw [elem_of_data] at he
  rcases hd i with hi | hi
  · rw [hi, ← elem_of_data] at he; exact h i e he
  · rw [hi] at he; cases he

theorem allElems_register {Q : Elem → Prop} {d : Doc} (data : Data) (h : AllElems Q d)
    (hQ : ∀ e, data = .element e → Q e) : AllElems Q (register d data).1 := by
  intro i e he
  rw [elem_of_data, dataAt_register] at he
  split at he
  · cases data with
    | element e' =>
      simp only [Option.bind_some, elemData, Option.some.injEq] at he
      exact he ▸ hQ e' rfl
    | document => cases he
    | doctype _ _ _ => cases he
    | text _ => cases he
    | comment _ => cases he
  · rw [← elem_of_data] at he; exact h i e he

theorem allElems_modify {Q : Elem → Prop} {d : Doc} (i : Nat) (f : Elem → Elem) (h : AllElems Q d)
    (hf : ∀ e, (nodeAt d i).bind elemOf = some e → Q e → Q (f e)) : AllElems Q (modify d i (onElem f)) := by
  intro j e he
  rw [elem_modify] at he
  split at he
  · next hij =>
    subst hij
    obtain ⟨e0, h0, rfl⟩ := Option.map_eq_some_iff.1 he
    exact hf e0 h0 (h i e0 h0)
  · exact h j e he

theorem classOk_step {d d' : Doc} {o : Op} {out : Option Nat} (hi : AllElems ClassOk d) (hT : ClassTidy d o)
    (h : step d o = some (d', out)) : AllElems ClassOk d' := by
  cases o with
  | createElement a b c =>
    simp only [step] at h; cases h
    exact allElems_register _ hi (fun e he => by cases he; exact classOk_new _ _ _ _)
  | createText a => simp only [step] at h; cases h; exact allElems_register _ hi (fun e he => by cases he)
  | createComment a => simp only [step] at h; cases h; exact allElems_register _ hi (fun e he => by cases he)
  | createDoctype a b c => simp only [step] at h; cases h; exact allElems_register _ hi (fun e he => by cases he)
  | clone i =>
    simp only [step] at h
    split at h
    · next n hn =>
      cases h
      refine allElems_register _ hi (fun e he => hi i e ?_)
      rw [hn]; simp only [Option.bind_some, elemOf, he]
    · cases h; exact hi
  | attach n p pos =>
    obtain ⟨x, hx, hy⟩ := Option.map_eq_some_iff.1 h
    cases hy; exact allElems_of_data hi (fun i => Or.inl (dataAt_attach hx i))
  | detach n => cases h; exact allElems_of_data hi (fun i => Or.inl (dataAt_detach d n i))
  | remove n =>
    cases h
    refine allElems_of_data hi (fun i => ?_)
    rw [dataAt_delete]
    split
    · exact Or.inr rfl
    · exact Or.inl rfl
  | relocate n p =>
    obtain ⟨x, hx, hy⟩ := Option.map_eq_some_iff.1 h
    cases hy; exact allElems_of_data hi (fun i => Or.inl ((dataAt_attach hx i).trans (dataAt_detach d n i)))
  | relocateUnlessThere n p =>
    obtain ⟨x, hx, hy⟩ := Option.map_eq_some_iff.1 h
    cases hy
    unfold relocateUnlessThere at hx
    split at hx
    · cases hx; exact hi
    · split at hx
      · cases hx; exact hi
      · exact allElems_of_data hi (fun i => Or.inl ((dataAt_attach hx i).trans (dataAt_detach d n i)))
  | setAttribute i k v =>
    cases h
    intro j e he
    rw [elem_setAttribute] at he
    split at he
    · next hij =>
      obtain ⟨e0, h0, rfl⟩ := Option.map_eq_some_iff.1 he
      exact classOk_addAttr k v (hi j e0 h0)
    · exact hi j e he
  | removeAttribute i k =>
    cases h
    refine allElems_modify i _ hi (fun e he hok => classOk_removeAttr k hok ?_)
    intro hk v w hv hw
    refine hT hk v w ?_ hw
    unfold attr; rw [he]; exact hv
  | addClass i c => exact absurd hT id
  | setTemplate i f => cases h; exact allElems_modify i _ hi (fun e _ hok => hok)
  | setText i v => cases h; intro j e he; rw [elem_text] at he; exact hi j e he
  | appendText i v => cases h; intro j e he; rw [elem_text] at he; exact hi j e he
  | hover leaf =>
    obtain ⟨x, hx, hy⟩ := Option.map_eq_some_iff.1 h
    cases hy
    intro j e he
    rw [nodeAt_congr (setHovered_links hx).1] at he
    exact hi j e he
  | focus n => cases h; exact hi

theorem classOk_reach {d : Doc} (h : Reach ClassTidy d) : AllElems ClassOk d := by
  induction h with
  | new =>
    intro i e he
    cases i with
    | zero => cases he
    | succ i => cases i <;> cases he
  | step _ hP hs ih => exact classOk_step ih hP hs

end Verif.Dom
