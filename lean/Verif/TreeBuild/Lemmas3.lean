import Verif.TreeBuild.Lemmas2

/-!
# The stack of open elements, insertions and the active formatting elements
-/
namespace Verif.TreeBuild
open Verif Verif.Dom

/-! ## Popping -/

theorem getLast_filter_suffix {α : Type} (p : α → Bool) {l r : List α} (h : r <:+ l) {y : α}
    (hy : (r.filter p).getLast? = some y) : (l.filter p).getLast? = some y := by
  obtain ⟨t, rfl⟩ := h
  rw [List.filter_append, List.getLast?_append, hy]; rfl

theorem bare_suffix {d : Doc} {l r : List Nat} (h : Bare d l) (hr : r <:+ l) : Bare d r :=
  ⟨fun x hx => h.none x (hr.mem hx), fun x hx => h.body x (hr.mem hx), fun y hy => h.base y (getLast_filter_suffix _ hr hy)⟩

theorem depth_sublist (d : Doc) {l r : List Nat} (h : r.Sublist l) : depth d r ≤ depth d l :=
  (h.filter _).length_le

theorem ok_opened {s : St} (h : Ok s) {r : List Nat} (hr : ∀ x ∈ r, live s.doc x) : Ok { s with opened := r } :=
  ⟨⟨h.base.fine, hr⟩, h.active, h.head, h.form, h.context, h.modes⟩

theorem good_suffix {s : St} (h : Good s) {r : List Nat} (hr : r <:+ s.opened) : Good { s with opened := r } :=
  ⟨ok_opened h.ok fun x hx => h.ok.base.opened x (hr.mem hx), fun hf => bare_suffix (h.bare hf) hr⟩

theorem mild_suffix {s : St} {r : List Nat} (hr : r <:+ s.opened) : Mild s { s with opened := r } :=
  ⟨⟨Ext.refl _, rfl, rfl, rfl, rfl, rfl, id⟩, depth_sublist _ hr.sublist⟩

theorem does_suffix {g : St → List Nat} (h : ∀ s, g s <:+ s.opened) : Does Mild (upd fun s => { s with opened := g s }) :=
  fun s hs => ⟨(), _, rfl, good_suffix hs (h s), mild_suffix (h s)⟩

theorem popTo_suffix (p : Nat → Bool) : ∀ l, popTo p l <:+ l
  | [] => List.suffix_refl _
  | x :: r => by
    unfold popTo
    split
    · exact List.suffix_cons x r
    · exact (popTo_suffix p r).trans (List.suffix_cons x r)

theorem does_pop : Does Mild pop := does_suffix fun s => List.tail_suffix _
theorem does_popNamed (n : Str) : Does Mild (popNamed n) := does_suffix fun _ => popTo_suffix _ _
theorem does_popAny (l : List String) : Does Mild (popAny l) := does_suffix fun _ => popTo_suffix _ _
theorem does_implied (e : Option Str) (b : Bool) : Does Mild (implied e b) := does_suffix fun _ => List.dropWhile_suffix _
theorem does_clearTo (l : List String) : Does Mild (clearTo l) := does_suffix fun _ => List.dropWhile_suffix _

theorem unwind_suffix (d : Doc) : ∀ l, unwindForeign d l <:+ l
  | [] => List.suffix_refl _
  | x :: r => by
    unfold unwindForeign
    split
    · exact List.suffix_refl _
    · exact (unwind_suffix d r).trans (List.suffix_cons x r)

theorem does_closeP : Does Mild closeP := does_bind (does_implied _ _) fun _ => does_popNamed _
theorem does_closePInScope : Does Mild closePInScope := does_whenM does_closeP

/-! ## Other fields -/

/-- a change of fields the invariant does not mention -/
theorem does_upd {R : St → St → Prop} {f : St → St} (h : ∀ s, Good s → Good (f s) ∧ R s (f s)) : Does R (upd f) :=
  fun s hs => ⟨(), f s, rfl, (h s hs).1, (h s hs).2⟩

theorem does_noFrameset : Does Mild noFrameset := does_upd fun s hs =>
  ⟨⟨⟨hs.ok.base, hs.ok.active, hs.ok.head, hs.ok.form, hs.ok.context, hs.ok.modes⟩, fun h => by cases h⟩,
    ⟨⟨Ext.refl _, rfl, rfl, rfl, rfl, rfl, fun h => by cases h⟩, Nat.le_refl _⟩⟩

theorem good_active {s : St} (hs : Good s) {l : List (Option Nat)} (h : ∀ x, some x ∈ l → live s.doc x ∧ fmt (tag s.doc x)) :
    Good { s with active := l } :=
  ⟨⟨hs.ok.base, h, hs.ok.head, hs.ok.form, hs.ok.context, hs.ok.modes⟩, hs.bare⟩

theorem mild_active (s : St) (l : List (Option Nat)) : Mild s { s with active := l } :=
  ⟨⟨Ext.refl _, rfl, rfl, rfl, rfl, rfl, id⟩, Nat.le_refl _⟩

theorem does_active {g : St → List (Option Nat)} (h : ∀ s x, some x ∈ g s → some x ∈ s.active) :
    Does Mild (upd fun s => { s with active := g s }) := does_upd fun s hs =>
  ⟨good_active hs fun x hx => hs.ok.active x (h s x hx), mild_active s _⟩

theorem does_pushMarker : Does Mild pushMarker := does_active fun s x hx => by
  rcases List.mem_cons.1 hx with hx | hx
  · cases hx
  · exact hx

theorem afterMarker_suffix : ∀ l, afterMarker l <:+ l
  | [] => List.suffix_refl _
  | none :: r => List.suffix_cons _ r
  | some x :: r => by
    unfold afterMarker
    exact (afterMarker_suffix r).trans (List.suffix_cons _ r)

theorem does_clearMarker : Does Mild clearMarker := does_active fun s _ hx => (afterMarker_suffix s.active).mem hx

theorem does_removeActive (n : Nat) : Does Mild (removeActive n) := does_active fun _ _ hx => (List.mem_filter.1 hx).1

theorem good_form {s : St} (hs : Good s) {f : Option Nat} (h : ∀ x, f = some x → live s.doc x ∧ tag s.doc x = "form".toList) :
    Good { s with form := f } :=
  ⟨⟨hs.ok.base, hs.ok.active, hs.ok.head, h, hs.ok.context, hs.ok.modes⟩, hs.bare⟩

theorem mild_form (s : St) (f : Option Nat) : Mild s { s with form := f } :=
  ⟨⟨Ext.refl _, rfl, rfl, rfl, rfl, rfl, id⟩, Nat.le_refl _⟩

theorem does_noForm : Does Mild (setForm none) := does_upd fun s hs => ⟨good_form hs (by intro x hx; cases hx), mild_form s none⟩

theorem does_foster (b : Bool) : Does Mild (upd fun s => { s with foster := b }) := does_upd fun s hs =>
  ⟨⟨⟨hs.ok.base, hs.ok.active, hs.ok.head, hs.ok.form, hs.ok.context, hs.ok.modes⟩, hs.bare⟩,
    ⟨⟨Ext.refl _, rfl, rfl, rfl, rfl, rfl, id⟩, Nat.le_refl _⟩⟩

theorem does_ignoreLf (b : Bool) : Does Mild (upd fun s => { s with ignoreLf := b }) := does_upd fun s hs =>
  ⟨⟨⟨hs.ok.base, hs.ok.active, hs.ok.head, hs.ok.form, hs.ok.context, hs.ok.modes⟩, hs.bare⟩,
    ⟨⟨Ext.refl _, rfl, rfl, rfl, rfl, rfl, id⟩, Nat.le_refl _⟩⟩

theorem does_pending (f : St → Str) : Does Mild (upd fun s => { s with pending := f s }) := does_upd fun s hs =>
  ⟨⟨⟨hs.ok.base, hs.ok.active, hs.ok.head, hs.ok.form, hs.ok.context, hs.ok.modes⟩, hs.bare⟩,
    ⟨⟨Ext.refl _, rfl, rfl, rfl, rfl, rfl, id⟩, Nat.le_refl _⟩⟩

/-! ## Pushing -/

/-- a name that changes nothing for `frameset` and for resets -/
def quiet (n : Str) : Prop := oneOf n resetters = false ∧ is n "body" = false

instance (n : Str) : Decidable (quiet n) := inferInstanceAs (Decidable (_ ∧ _))

theorem quiet_fmt {n : Str} (h : fmt n) : quiet n := oneOf_elim quiet (by decide) h

theorem ok_push {s : St} (h : Ok s) {d' : Doc} {n : Nat} (hf : Fine d') (he : Ext s.doc d') (hn : live d' n) :
    Ok { s with doc := d', opened := n :: s.opened } := by
  have h' := ok_doc h hf he
  refine ⟨⟨hf, ?_⟩, h'.active, h'.head, h'.form, h'.context, h'.modes⟩
  intro x hx
  rcases List.mem_cons.1 hx with rfl | hx
  · exact hn
  · exact h'.base.opened x hx

theorem bare_push {d : Doc} {l : List Nat} {n : Nat} (h : Bare d l) (hb : is (tag d n) "body" = false)
    (hr : isHtml d n = true → oneOf (tag d n) resetters = false) : Bare d (n :: l) := by
  refine ⟨?_, ?_, ?_⟩
  · intro x hx
    rcases List.mem_cons.1 hx with rfl | hx
    · exact hr
    · exact h.none x hx
  · intro x hx
    rcases List.mem_cons.1 hx with rfl | hx
    · intro h'; rw [hb] at h'; cases h'
    · exact h.body x hx
  · intro y hy
    rw [List.filter_cons] at hy
    split at hy
    · next ha =>
      rw [List.getLast?_cons] at hy
      cases hl : (l.filter (anchor d)).getLast? with
      | some z =>
        rw [hl] at hy
        cases hy
        exact h.base _ hl
      | none =>
        rw [hl] at hy
        cases hy
        unfold anchor oneOf at ha
        simp only [List.any_cons, List.any_nil, Bool.or_false, Bool.and_eq_true, Bool.or_eq_true] at ha
        rcases ha.2 with ha | ha
        · exact ha
        · rw [hb] at ha; cases ha
    · exact h.base y hy

theorem good_push {s : St} (h : Good s) {d' : Doc} {n : Nat} (hf : Fine d') (he : Ext s.doc d') (hn : live d' n)
    (hb : is (tag d' n) "body" = false) (hr : isHtml d' n = true → oneOf (tag d' n) resetters = false) :
    Good { s with doc := d', opened := n :: s.opened } :=
  ⟨ok_push h.ok hf he hn, fun hf' => bare_push (bare_ext (h.bare hf') h.ok.base.opened he) hb hr⟩

theorem soft_push (s : St) {d' : Doc} {l : List Nat} (he : Ext s.doc d') : Soft s { s with doc := d', opened := l } :=
  ⟨he, rfl, rfl, rfl, rfl, rfl, id⟩

theorem depth_push {s : St} (h : Base s.doc s.opened) {d' : Doc} {n : Nat} (he : Ext s.doc d')
    (hr : oneOf (tag d' n) resetters = false) : depth d' (n :: s.opened) = depth s.doc s.opened := by
  rw [← depth_ext h.opened he]
  unfold depth
  rw [List.filter_cons, hr]; rfl

/-- the new element and what becomes of the state -/
theorem insertElement_eq (nm nsp : Str) (as : Attrs) {s : St} (h : Base s.doc s.opened) :
    ∃ n d', insertElement nm nsp as s = some (n, { s with doc := d', opened := n :: s.opened }) ∧ Fine d' ∧ Ext s.doc d' ∧
      ¬ live s.doc n ∧ live d' n ∧ tag d' n = nm ∧ ns d' n = some nsp ∧ isElement d' n = true := by
  obtain ⟨d1, n, h1, hM, h2, h3, h4⟩ := made_element h.fine nm nsp as
  obtain ⟨d2, h5, h6, h7⟩ := insertHere_ok (s := { s with doc := d1 }) (base_ext h hM.fine hM.ext) (o := none)
    (by intro x hx; cases hx) hM.here hM.loose
  obtain ⟨h8, h9, h10⟩ := h7 n hM.here
  refine ⟨n, d2, ?_, h6, hM.ext.trans h7, hM.new, h8, h9.trans h2, h10.trans h3, ?_⟩
  · unfold insertElement
    rw [bind_some (dom_new h1), bind_some h5]
    rfl
  · have : (ns d2 n).isSome = true := by rw [h10, h3]; rfl
    unfold ns at this
    rw [Option.isSome_map] at this
    exact this

theorem isHtml_of {d : Doc} {n : Nat} {nsp : Str} (h : ns d n = some nsp) (hh : isHtml d n = true) : nsp = htmlNs := by
  unfold isHtml at hh
  rw [decide_eq_true_eq, h] at hh
  exact Option.some.inj hh

theorem does_insertElement {nm nsp : Str} (as : Attrs) (hb : is nm "body" = false)
    (hr : nsp = htmlNs → oneOf nm resetters = false) : Does Soft (insertElement nm nsp as) := by
  intro s hs
  obtain ⟨n, d', h1, h2, h3, _, h5, h6, h7, _⟩ := insertElement_eq nm nsp as hs.ok.base
  refine ⟨n, _, h1, good_push hs h2 h3 h5 (h6 ▸ hb) ?_, soft_push s h3⟩
  intro hh
  rw [h6]; exact hr (isHtml_of h7 hh)

theorem does_insertHtml {nm : Str} (as : Attrs) (h : quiet nm) : Does Mild (insertHtml nm as) := by
  intro s hs
  obtain ⟨n, d', h1, h2, h3, _, h5, h6, h7, _⟩ := insertElement_eq nm htmlNs as hs.ok.base
  refine ⟨n, _, h1, good_push hs h2 h3 h5 (h6 ▸ h.2) (fun _ => h6 ▸ h.1), soft_push s h3, ?_⟩
  exact Nat.le_of_eq (depth_push hs.ok.base h3 (h6 ▸ h.1))

theorem does_insert_ {nm : Str} (as : Attrs) (h : quiet nm) : Does Mild (insert_ nm as) :=
  does_bind (does_insertHtml as h) fun _ => does_pure ()

theorem docOnly_insertVoid (nm : Str) (as : Attrs) : DocOnly (insertVoid nm as) := by
  intro s hs
  obtain ⟨n, d', h1, h2, h3, _⟩ := insertElement_eq nm htmlNs as hs
  refine ⟨(), d', ?_, h2, h3⟩
  unfold insertVoid insert_ insertHtml
  rw [bind_eq, bind_some h1]
  rfl

theorem does_insertVoid (nm : Str) (as : Attrs) : Does Mild (insertVoid nm as) := (docOnly_insertVoid nm as).does

/-! ## Active formatting elements -/

theorem does_pushActive {n : Nat} {s : St} (hs : Good s) (hn : live s.doc n) (hf : fmt (tag s.doc n)) :
    ∃ s', pushActive n s = some ((), s') ∧ Good s' ∧ Mild s s' := by
  refine ⟨_, rfl, good_active hs ?_, mild_active s _⟩
  intro x hx
  rcases List.mem_cons.1 hx with hx | hx
  · cases hx; exact ⟨hn, hf⟩
  · revert hx
    split
    · exact fun hx => hs.ok.active x (List.mem_filter.1 hx).1
    · exact fun hx => hs.ok.active x hx

/-- a formatting element is inserted and goes on the list -/
theorem does_formatting {nm : Str} (as : Attrs) (h : fmt nm) :
    Does Mild (do let e ← insertHtml nm as; pushActive e) := by
  intro s hs
  have hq := quiet_fmt h
  obtain ⟨n, d', h1, h2, h3, _, h5, h6, h7, _⟩ := insertElement_eq nm htmlNs as hs.ok.base
  have hg := good_push hs h2 h3 h5 (h6 ▸ hq.2) (fun _ => h6 ▸ hq.1)
  obtain ⟨s', h8, h9, h10⟩ := does_pushActive (n := n) hg h5 (by show fmt (tag d' n); rw [h6]; exact h)
  refine ⟨(), s', ?_, h9, Mild.trans ⟨soft_push s h3, ?_⟩ h10⟩
  · unfold insertHtml; rw [bind_some h1, h8]
  · exact Nat.le_of_eq (depth_push hs.ok.base h3 (h6 ▸ hq.1))

theorem insertClone_ok {s : St} (hs : Good s) {i : Nat} (hi : live s.doc i) (hf : fmt (tag s.doc i)) :
    ∃ n s', insertClone i s = some (n, s') ∧ Good s' ∧ Mild s s' ∧ s'.active = s.active ∧ live s'.doc n ∧ fmt (tag s'.doc n) := by
  obtain ⟨d1, n, h1, hM, h2, _⟩ := made_clone hs.ok.base.fine hi
  obtain ⟨d2, h5, h6, h7⟩ := insertHere_ok (s := { s with doc := d1 }) (base_ext hs.ok.base hM.fine hM.ext) (o := none)
    (by intro x hx; cases hx) hM.here hM.loose
  obtain ⟨h8, h9, _⟩ := h7 n hM.here
  have ht : tag d2 n = tag s.doc i := h9.trans h2
  have hq : quiet (tag d2 n) := ht ▸ quiet_fmt hf
  have hext := hM.ext.trans h7
  refine ⟨n, { s with doc := d2, opened := n :: s.opened }, ?_, good_push hs h6 hext h8 hq.2 (fun _ => hq.1),
    ⟨soft_push s hext, Nat.le_of_eq (depth_push hs.ok.base hext hq.1)⟩, rfl, h8, by show fmt (tag d2 n); rw [ht]; exact hf⟩
  unfold insertClone
  rw [bind_some (dom_new h1), bind_some h5]
  rfl

theorem cloneAll_ok : ∀ (l : List Nat) (acc : List (Option Nat)) {s : St}, Good s →
    (∀ x ∈ l, live s.doc x ∧ fmt (tag s.doc x)) → (∀ x, some x ∈ acc → live s.doc x ∧ fmt (tag s.doc x)) →
    ∃ new s', cloneAll l acc s = some (new, s') ∧ Good s' ∧ Mild s s' ∧ s'.active = s.active ∧
      (∀ x, some x ∈ new → live s'.doc x ∧ fmt (tag s'.doc x))
  | [], acc, s, hs, _, ha => ⟨acc, s, rfl, hs, Mild.refl s, rfl, ha⟩
  | i :: r, acc, s, hs, hl, ha => by
    obtain ⟨hi, hf⟩ := hl i (by simp)
    obtain ⟨n, s1, h1, h2, h3, h4, h5, h6⟩ := insertClone_ok hs hi hf
    have keep : ∀ x, live s.doc x ∧ fmt (tag s.doc x) → live s1.doc x ∧ fmt (tag s1.doc x) := by
      intro x hx
      obtain ⟨y1, y2, _⟩ := h3.ext x hx.1
      exact ⟨y1, y2 ▸ hx.2⟩
    obtain ⟨new, s2, h7, h8, h9, h10, h11⟩ := cloneAll_ok r (some n :: acc) h2
      (fun x hx => keep x (hl x (List.mem_cons_of_mem _ hx))) (by
        intro x hx
        rcases List.mem_cons.1 hx with hx | hx
        · cases hx; exact ⟨h5, h6⟩
        · exact keep x (ha x hx))
    refine ⟨new, s2, ?_, h8, h3.trans h9, h10.trans h4, h11⟩
    unfold cloneAll
    rw [bind_some h1, h7]

theorem mem_closedActive (o : List Nat) : ∀ {l : List (Option Nat)} {x : Nat}, x ∈ closedActive o l → some x ∈ l
  | [], x, h => by cases h
  | none :: r, x, h => by cases h
  | some i :: r, x, h => by
    unfold closedActive at h
    split at h
    · cases h
    · rcases List.mem_cons.1 h with rfl | h
      · simp
      · exact List.mem_cons_of_mem _ (mem_closedActive o h)

theorem does_reconstruct : Does Mild reconstruct := by
  intro s hs
  unfold reconstruct
  simp only
  obtain ⟨new, s1, h1, h2, h3, h4, h5⟩ := cloneAll_ok (closedActive s.opened s.active).reverse [] hs (by
    intro x hx
    exact hs.ok.active x (mem_closedActive _ (List.mem_reverse.1 hx))) (by intro x hx; cases hx)
  refine ⟨(), _, by rw [bind_some h1]; rfl, good_active h2 ?_, h3.trans (mild_active s1 _)⟩
  intro x hx
  rcases List.mem_append.1 hx with hx | hx
  · exact h5 x hx
  · exact h2.ok.active x (List.mem_of_mem_drop hx)

/-! ## End tags -/

theorem mem_dropWhile {α : Type} {p : α → Bool} {x : α} (hp : p x = false) : ∀ {l : List α}, x ∈ l → x ∈ l.dropWhile p
  | y :: r, h => by
    rw [List.dropWhile_cons]
    split
    · next hy =>
      rcases List.mem_cons.1 h with rfl | h
      · rw [hp] at hy; cases hy
      · exact mem_dropWhile hp h
    · exact h

theorem popNode_some {n : Nat} : ∀ {l : List Nat}, n ∈ l → ∃ r, popNode n l = some r ∧ r <:+ l
  | x :: r, h => by
    unfold popNode
    by_cases hx : x = n
    · rw [if_pos hx]; exact ⟨r, rfl, List.suffix_cons x r⟩
    · rw [if_neg hx]
      have : n ∈ r := by
        rcases List.mem_cons.1 h with h | h
        · exact absurd h.symm hx
        · exact h
      obtain ⟨q, h1, h2⟩ := popNode_some this
      exact ⟨q, h1, h2.trans (List.suffix_cons x r)⟩

theorem endTagLoop_ok (t : Str) : ∀ {l : List Nat} {s : St}, Good s → (∀ x ∈ l, x ∈ s.opened) →
    ∃ s', endTagLoop t l s = some ((), s') ∧ Good s' ∧ Mild s s'
  | [], s, hs, _ => ⟨s, rfl, hs, Mild.refl s⟩
  | x :: r, s, hs, hl => by
    unfold endTagLoop
    split
    · next ht =>
      have hi : isImplied s.doc (some t) false x = false := by
        unfold isImplied
        rw [ht]; simp
      obtain ⟨q, h1, h2⟩ := popNode_some (mem_dropWhile hi (hl x (by simp)))
      have hq : q <:+ s.opened := h2.trans (List.dropWhile_suffix _)
      refine ⟨{ s with opened := q }, ?_, good_suffix hs hq, mild_suffix hq⟩
      unfold implied upd
      simp only [Option.bind_some, h1, Option.map_some]
    · split
      · exact ⟨s, rfl, hs, Mild.refl s⟩
      · exact endTagLoop_ok t hs fun y hy => hl y (List.mem_cons_of_mem _ hy)

theorem does_otherEndTag (t : Str) : Does Mild (otherEndTag t) := fun _ hs =>
  let ⟨s', h⟩ := endTagLoop_ok t hs fun _ h => h
  ⟨(), s', h⟩

theorem closeItems_ok (names : List String) : ∀ (l : List Nat) {s : St}, Good s →
    ∃ s', closeItems names l s = some ((), s') ∧ Good s' ∧ Mild s s'
  | [], s, hs => ⟨s, rfl, hs, Mild.refl s⟩
  | x :: r, s, hs => by
    unfold closeItems
    simp only
    split
    · obtain ⟨_, s', h⟩ := does_bind (does_implied (some (tag s.doc x)) false) (fun _ => does_popNamed (tag s.doc x)) s hs
      exact ⟨s', h⟩
    · split
      · exact ⟨s, rfl, hs, Mild.refl s⟩
      · exact closeItems_ok names r hs

theorem does_closeItems (names : List String) : Does Mild (fun s => closeItems names s.opened s) := fun s hs =>
  let ⟨s', h⟩ := closeItems_ok names s.opened hs
  ⟨(), s', h⟩

end Verif.TreeBuild
