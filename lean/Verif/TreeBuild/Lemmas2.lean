import Verif.TreeBuild.Lemmas

/-!
# What holds throughout, and the actions that keep it
-/
namespace Verif.TreeBuild
open Verif Verif.Dom

theorem oneOf_elim {n : Str} {l : List String} (p : Str → Prop) (h : ∀ k ∈ l, p k.toList) (ho : oneOf n l = true) : p n := by
  unfold oneOf at ho
  rw [List.any_eq_true] at ho
  obtain ⟨k, hk, he⟩ := ho
  unfold TreeBuild.is at he
  rw [decide_eq_true_eq] at he
  exact he ▸ h k hk

theorem is_iff {n : Str} {k : String} : is n k = true ↔ n = k.toList := by
  unfold TreeBuild.is; rw [decide_eq_true_eq]

theorem oneOf_iff {n : Str} {l : List String} : oneOf n l = true ↔ ∃ k ∈ l, n = k.toList := by
  unfold oneOf
  rw [List.any_eq_true]
  simp only [is_iff]

/-! ## The invariant -/

/-- an insertion mode that is left for good only by a handler: neither `text` nor `in table text` -/
def plain (m : Mode) : Prop := m ≠ .text ∧ m ≠ .inTableText

instance (m : Mode) : Decidable (plain m) := inferInstanceAs (Decidable (_ ∧ _))

/-- the modes from the body on -/
def late (m : Mode) : Prop :=
  m ≠ .initial ∧ m ≠ .beforeHtml ∧ m ≠ .beforeHead ∧ m ≠ .inHead ∧ m ≠ .inHeadNoscript ∧ m ≠ .afterHead ∧ plain m

instance (m : Mode) : Decidable (late m) := inferInstanceAs (Decidable (_ ∧ _))

/-- the name of a formatting element -/
def fmt (n : Str) : Prop := oneOf n formattingEnd = true

/-- the elements after which the insertion mode is reset -/
def resetters : List String := ["template", "table", "select"]

/-- document and stack are in order -/
structure Base (d : Doc) (l : List Nat) : Prop where
  fine : Fine d
  opened : ∀ x ∈ l, live d x

/-- the state is in order -/
structure Ok (s : St) : Prop where
  base : Base s.doc s.opened
  active : ∀ x, some x ∈ s.active → live s.doc x ∧ fmt (tag s.doc x)
  head : ∀ x, s.head = some x → live s.doc x ∧ tag s.doc x = "head".toList
  form : ∀ x, s.form = some x → live s.doc x ∧ tag s.doc x = "form".toList
  context : ∀ x, s.context = some x → live s.doc x
  modes : ∀ m ∈ s.templateModes, late m

/-- an `html` or `body` element -/
def anchor (d : Doc) (i : Nat) : Bool := isHtml d i && oneOf (tag d i) ["html", "body"]

/-- the stack while a `frameset` start tag may still be accepted -/
structure Bare (d : Doc) (l : List Nat) : Prop where
  none : ∀ x ∈ l, isHtml d x = true → oneOf (tag d x) resetters = false
  body : ∀ x ∈ l, is (tag d x) "body" = true → isHtml d x = true
  base : ∀ y, (l.filter (anchor d)).getLast? = some y → is (tag d y) "html" = true

/-- what holds before and after every handler -/
structure Good (s : St) : Prop where
  ok : Ok s
  bare : s.framesetOk = true → Bare s.doc s.opened

/-- how many elements are open after which the mode is reset -/
def depth (d : Doc) (l : List Nat) : Nat := (l.filter fun i => oneOf (tag d i) resetters).length

/-- the action leaves the mode and the queue alone -/
structure Soft (s s' : St) : Prop where
  ext : Ext s.doc s'.doc
  mode : s'.mode = s.mode
  original : s'.original = s.original
  queue : s'.queue = s.queue
  finished : s'.finished = s.finished
  context : s'.context = s.context
  frameset : s'.framesetOk = true → s.framesetOk = true

theorem Soft.refl (s : St) : Soft s s := ⟨Ext.refl _, rfl, rfl, rfl, rfl, rfl, id⟩

theorem Soft.trans {a b c : St} (h : Soft a b) (h' : Soft b c) : Soft a c :=
  ⟨h.ext.trans h'.ext, h'.mode.trans h.mode, h'.original.trans h.original, h'.queue.trans h.queue,
    h'.finished.trans h.finished, h'.context.trans h.context, fun x => h.frameset (h'.frameset x)⟩

/-- … and no more elements are open after which the mode is reset -/
structure Mild (s s' : St) : Prop extends Soft s s' where
  depth : depth s'.doc s'.opened ≤ depth s.doc s.opened

theorem Mild.refl (s : St) : Mild s s := ⟨Soft.refl s, Nat.le_refl _⟩

theorem Mild.trans {a b c : St} (h : Mild a b) (h' : Mild b c) : Mild a c :=
  ⟨h.toSoft.trans h'.toSoft, Nat.le_trans h'.depth h.depth⟩

/-! ## Rules -/

/-- the action comes to an end, keeps the state in order, and states before and after are related -/
def Does {α : Type} (R : St → St → Prop) (m : M α) : Prop :=
  ∀ s, Good s → ∃ a s', m s = some (a, s') ∧ Good s' ∧ R s s'

/-- a relation that can be chained -/
class Chain (R : St → St → Prop) : Prop where
  refl : ∀ s, R s s
  trans : ∀ {a b c}, R a b → R b c → R a c

instance : Chain Soft := ⟨Soft.refl, Soft.trans⟩
instance : Chain Mild := ⟨Mild.refl, Mild.trans⟩

theorem bind_eq {α β : Type} (m : M α) (f : α → M β) (s : St) : (m >>= f) s = (m s).bind fun r => f r.1 r.2 := rfl

theorem bind_some {α β : Type} {m : M α} {f : α → M β} {s s' : St} {a : α} (h : m s = some (a, s')) :
    (m >>= f) s = f a s' := by rw [bind_eq, h]; rfl

theorem Does.soft {α : Type} {m : M α} (h : Does Mild m) : Does Soft m := fun s hs =>
  let ⟨a, s', h1, h2, h3⟩ := h s hs
  ⟨a, s', h1, h2, h3.toSoft⟩

theorem does_pure {α : Type} {R : St → St → Prop} [Chain R] (a : α) : Does R (pure a : M α) := fun s hs =>
  ⟨a, s, rfl, hs, Chain.refl s⟩

theorem does_bind {α β : Type} {R : St → St → Prop} [Chain R] {m : M α} {f : α → M β} (h : Does R m) (hf : ∀ a, Does R (f a)) :
    Does R (m >>= f) := by
  intro s hs
  obtain ⟨a, s1, h1, h2, h3⟩ := h s hs
  obtain ⟨b, s2, h4, h5, h6⟩ := hf a s1 h2
  exact ⟨b, s2, by rw [bind_some h1, h4], h5, Chain.trans h3 h6⟩

theorem does_ifM {α : Type} {R : St → St → Prop} {c : St → Bool} {a b : M α} (ha : Does R a) (hb : Does R b) :
    Does R (ifM c a b) := by
  intro s hs
  unfold ifM
  split
  · exact ha s hs
  · exact hb s hs

theorem does_whenM {R : St → St → Prop} [Chain R] {c : St → Bool} {a : M Unit} (ha : Does R a) : Does R (whenM c a) :=
  does_ifM ha (does_pure ())

theorem does_ite {α : Type} {R : St → St → Prop} {c : Prop} [Decidable c] {a b : M α} (ha : c → Does R a) (hb : ¬ c → Does R b) :
    Does R (if c then a else b) := by
  split
  · next h => exact ha h
  · next h => exact hb h

/-! ## Changing only the document -/

theorem base_ext {d d' : Doc} {l : List Nat} (h : Base d l) (hf : Fine d') (he : Ext d d') : Base d' l :=
  ⟨hf, fun x hx => (he x (h.opened x hx)).1⟩

theorem ok_doc {s : St} (h : Ok s) {d' : Doc} (hf : Fine d') (he : Ext s.doc d') : Ok { s with doc := d' } := by
  refine ⟨base_ext h.base hf he, ?_, ?_, ?_, ?_, h.modes⟩
  · intro x hx
    obtain ⟨h1, h2⟩ := h.active x hx
    obtain ⟨h3, h4, _⟩ := he x h1
    exact ⟨h3, by show fmt (tag d' x); rw [h4]; exact h2⟩
  · intro x hx
    obtain ⟨h1, h2⟩ := h.head x hx
    obtain ⟨h3, h4, _⟩ := he x h1
    exact ⟨h3, h4.trans h2⟩
  · intro x hx
    obtain ⟨h1, h2⟩ := h.form x hx
    obtain ⟨h3, h4, _⟩ := he x h1
    exact ⟨h3, h4.trans h2⟩
  · intro x hx
    exact (he x (h.context x hx)).1

theorem isHtml_ext {d d' : Doc} (he : Ext d d') {x : Nat} (hx : live d x) : isHtml d' x = isHtml d x := by
  unfold isHtml; rw [(he x hx).2.2]

theorem anchor_ext {d d' : Doc} (he : Ext d d') {x : Nat} (hx : live d x) : anchor d' x = anchor d x := by
  unfold anchor; rw [isHtml_ext he hx, (he x hx).2.1]

theorem bare_ext {d d' : Doc} {l : List Nat} (h : Bare d l) (hl : ∀ x ∈ l, live d x) (he : Ext d d') : Bare d' l := by
  refine ⟨?_, ?_, ?_⟩
  · intro x hx hh
    rw [isHtml_ext he (hl x hx)] at hh
    rw [(he x (hl x hx)).2.1]
    exact h.none x hx hh
  · intro x hx hb
    rw [(he x (hl x hx)).2.1] at hb
    rw [isHtml_ext he (hl x hx)]
    exact h.body x hx hb
  · intro y hy
    have hf : l.filter (anchor d') = l.filter (anchor d) := List.filter_congr fun x hx => anchor_ext he (hl x hx)
    rw [hf] at hy
    have hm : y ∈ l := (List.mem_filter.1 (List.mem_of_getLast? hy)).1
    rw [(he y (hl y hm)).2.1]
    exact h.base y hy

theorem depth_ext {d d' : Doc} {l : List Nat} (hl : ∀ x ∈ l, live d x) (he : Ext d d') : depth d' l = depth d l := by
  unfold depth
  rw [List.filter_congr fun x hx => by rw [(he x (hl x hx)).2.1]]

theorem good_doc {s : St} (h : Good s) {d' : Doc} (hf : Fine d') (he : Ext s.doc d') : Good { s with doc := d' } :=
  ⟨ok_doc h.ok hf he, fun hf' => bare_ext (h.bare hf') h.ok.base.opened he⟩

/-- the action changes only the document -/
def DocOnly {α : Type} (m : M α) : Prop :=
  ∀ s, Base s.doc s.opened → ∃ a d', m s = some (a, { s with doc := d' }) ∧ Fine d' ∧ Ext s.doc d'

theorem DocOnly.does {α : Type} {m : M α} (h : DocOnly m) : Does Mild m := by
  intro s hs
  obtain ⟨a, d', h1, h2, h3⟩ := h s hs.ok.base
  exact ⟨a, _, h1, good_doc hs h2 h3, ⟨⟨h3, rfl, rfl, rfl, rfl, rfl, id⟩, Nat.le_of_eq (depth_ext hs.ok.base.opened h3)⟩⟩

theorem docOnly_pure {α : Type} (a : α) : DocOnly (pure a : M α) := fun s hs => ⟨a, s.doc, rfl, hs.fine, Ext.refl _⟩

theorem docOnly_bind {α β : Type} {m : M α} {f : α → M β} (h : DocOnly m) (hf : ∀ a, DocOnly (f a)) : DocOnly (m >>= f) := by
  intro s hs
  obtain ⟨a, d1, h1, h2, h3⟩ := h s hs
  obtain ⟨b, d2, h4, h5, h6⟩ := hf a { s with doc := d1 } (base_ext hs h2 h3)
  exact ⟨b, d2, by rw [bind_some h1, h4], h5, h3.trans h6⟩

theorem docOnly_whenM {c : St → Bool} {a : M Unit} (ha : DocOnly a) : DocOnly (whenM c a) := by
  intro s hs
  unfold whenM ifM
  split
  · exact ha s hs
  · exact docOnly_pure () s hs

theorem dom_eq {s : St} {o : Op} {d' : Doc} {out : Option Nat} (h : step s.doc o = some (d', out)) :
    dom o s = some (out.getD 0, { s with doc := d' }) := by unfold dom; rw [h]; rfl

theorem dom_new {s : St} {o : Op} {d' : Doc} {n : Nat} (h : step s.doc o = some (d', some n)) :
    dom o s = some (n, { s with doc := d' }) := by unfold dom; rw [h]; rfl

/-- the node under which a place is -/
def Place.parent : Place → Nat
  | .lastChild p => p
  | .before p _ => p

theorem insertAt_ok {s : St} (hf : Fine s.doc) {n : Nat} {pl : Place} (hn : live s.doc n) (hl : Dom.parent s.doc n = none)
    (hp : live s.doc pl.parent) :
    ∃ d', insertAt n pl s = some ((), { s with doc := d' }) ∧ Fine d' ∧ Ext s.doc d' := by
  cases pl with
  | lastChild p =>
    obtain ⟨d', h1, h2, h3, _⟩ := fine_attach (p := p) hf none hn hp hl
    refine ⟨d', ?_, h2, h3⟩
    unfold insertAt
    simp only
    rw [dom_eq h1]; rfl
  | before p b =>
    obtain ⟨d', h1, h2, h3, _⟩ := fine_attach (p := p) hf (childIndex s.doc p b) hn hp hl
    refine ⟨d', ?_, h2, h3⟩
    unfold insertAt
    simp only
    rw [dom_eq h1]; rfl

theorem fosterPlace_live {d : Doc} (hf : Fine d) {first : Nat} (h0 : live d first) : ∀ {l : List Nat}, (∀ x ∈ l, live d x) →
    live d (fosterPlace d first l).parent
  | [], _ => h0
  | x :: r, h => by
    have ih := fosterPlace_live hf h0 (l := r) fun y hy => h y (List.mem_cons_of_mem _ hy)
    unfold fosterPlace
    split
    · split
      · next c hc => exact hf.inner x c hc
      · exact ih
    · split
      · split
        · next p hp => exact hf.up x p hp
        · split
          · next y _ => exact h y (by simp)
          · exact h0
      · exact ih

theorem first_live {s : St} (h : Base s.doc s.opened) : live s.doc (s.opened.getLast?.getD 0) := by
  cases hl : s.opened.getLast? with
  | none => exact h.fine.root
  | some x => exact h.opened x (List.mem_of_getLast? hl)

theorem current_live {s : St} (h : Base s.doc s.opened) : live s.doc (current s) := by
  unfold current
  cases hl : s.opened with
  | nil => exact h.fine.root
  | cons x r => exact h.opened x (by rw [hl]; simp)

theorem placeFor_live {s : St} (h : Base s.doc s.opened) {o : Option Nat} (ho : ∀ x, o = some x → live s.doc x) :
    live s.doc (placeFor s o).parent := by
  have hfp := fosterPlace_live h.fine (first_live h) h.opened
  have ht : live s.doc (o.getD (current s)) := by
    cases o with
    | none => exact current_live h
    | some x => exact ho x rfl
  unfold placeFor
  simp only
  split
  · exact hfp
  · split
    · split
      · next c hc => exact h.fine.inner _ c hc
      · exact hfp
    · exact ht

theorem insertHere_ok {s : St} (h : Base s.doc s.opened) {n : Nat} {o : Option Nat} (ho : ∀ x, o = some x → live s.doc x)
    (hn : live s.doc n) (hl : Dom.parent s.doc n = none) :
    ∃ d', insertHere n o s = some ((), { s with doc := d' }) ∧ Fine d' ∧ Ext s.doc d' :=
  insertAt_ok h.fine hn hl (placeFor_live h ho)

/-! ## Text, comments, attributes -/

theorem docOnly_newText (v : Str) {p : Nat} (pos : Option Nat) {s : St} (hf : Fine s.doc) (hp : live s.doc p) :
    ∃ d', newText v p pos s = some ((), { s with doc := d' }) ∧ Fine d' ∧ Ext s.doc d' := by
  obtain ⟨d1, n, h1, hM⟩ := made_other hf (o := .createText v) (data := .text v) rfl trivial rfl
  obtain ⟨d2, h2, h3, h4, _⟩ := fine_attach hM.fine pos hM.here (hM.ext p hp).1 hM.loose
  refine ⟨d2, ?_, h3, hM.ext.trans h4⟩
  unfold newText
  rw [bind_some (dom_new h1)]
  rw [bind_some (dom_eq (s := { s with doc := d1 }) h2)]
  rfl

theorem docOnly_mergeText (v : Str) (old : Option Nat) {p : Nat} (pos : Option Nat) {s : St} (hf : Fine s.doc) (hp : live s.doc p) :
    ∃ d', mergeText v old p pos s = some ((), { s with doc := d' }) ∧ Fine d' ∧ Ext s.doc d' := by
  unfold mergeText
  split
  · next i =>
    split
    · obtain ⟨d', h1, h2, h3⟩ := fine_appendText hf i v
      exact ⟨d', by rw [dom_eq h1]; rfl, h2, h3⟩
    · exact docOnly_newText v pos hf hp
  · exact docOnly_newText v pos hf hp

theorem docOnly_insertText (v : Str) : DocOnly (insertText v) := by
  intro s hs
  have hp := placeFor_live hs (o := none) (by intro x hx; cases hx)
  unfold insertText
  split
  · exact ⟨(), s.doc, rfl, hs.fine, Ext.refl _⟩
  · generalize hpl : placeFor s none = pl at hp
    cases pl with
    | lastChild p =>
      obtain ⟨d', h⟩ := docOnly_mergeText v ((children s.doc p).getLast?) none (s := s) hs.fine hp
      exact ⟨(), d', h⟩
    | before p b =>
      unfold insertTextAt
      simp only
      split
      · next i hi =>
        have hlt : i + 1 < (children s.doc p).length := by
          unfold childIndex at hi
          exact (List.findIdx?_eq_some_iff_findIdx_eq.1 hi).1
        split
        · next l _ =>
          obtain ⟨d', h⟩ := docOnly_mergeText v (some l) (some (i + 1)) (s := s) hs.fine hp
          exact ⟨(), d', h⟩
        · next hn =>
          rw [List.getElem?_eq_none_iff] at hn
          omega
      · next pos _ =>
        obtain ⟨d', h⟩ := docOnly_newText v (childIndex s.doc p b) (s := s) hs.fine hp
        exact ⟨(), d', h⟩

theorem docOnly_insertComment (v : Str) : DocOnly (insertComment v) := by
  intro s hs
  obtain ⟨d1, n, h1, hM⟩ := made_other hs.fine (o := .createComment v) (data := .comment v) rfl trivial rfl
  obtain ⟨d2, h2, h3, h4⟩ := insertHere_ok (s := { s with doc := d1 }) (base_ext hs hM.fine hM.ext) (o := none)
    (by intro x hx; cases hx) hM.here hM.loose
  refine ⟨(), d2, ?_, h3, hM.ext.trans h4⟩
  unfold insertComment
  rw [bind_some (dom_new h1)]
  exact h2

theorem docOnly_insertCommentIn (v : Str) {p : Nat} {s : St} (hs : Base s.doc s.opened) (hp : live s.doc p) :
    ∃ d', insertCommentIn v p s = some ((), { s with doc := d' }) ∧ Fine d' ∧ Ext s.doc d' := by
  obtain ⟨d1, n, h1, hM⟩ := made_other hs.fine (o := .createComment v) (data := .comment v) rfl trivial rfl
  obtain ⟨d2, h2, h3, h4⟩ := insertAt_ok (s := { s with doc := d1 }) (pl := .lastChild p) hM.fine hM.here hM.loose (hM.ext p hp).1
  refine ⟨d2, ?_, h3, hM.ext.trans h4⟩
  unfold insertCommentIn
  rw [bind_some (dom_new h1)]
  exact h2

theorem docOnly_commentRoot (v : Str) : DocOnly (insertCommentIn v 0) := fun _ hs =>
  let ⟨d', h⟩ := docOnly_insertCommentIn v hs hs.fine.root
  ⟨(), d', h⟩

theorem docOnly_commentFirst (v : Str) : DocOnly (fun s => insertCommentIn v (s.opened.getLast?.getD 0) s) := fun _ hs =>
  let ⟨d', h⟩ := docOnly_insertCommentIn v hs (first_live hs)
  ⟨(), d', h⟩

theorem docOnly_insertDoctype (n p y : Option Str) : DocOnly (insertDoctype n p y) := by
  intro s hs
  obtain ⟨d1, k, h1, hM⟩ := made_other hs.fine (o := .createDoctype (n.getD []) (p.getD []) (y.getD []))
    (data := .doctype (n.getD []) (p.getD []) (y.getD [])) rfl trivial rfl
  obtain ⟨d2, h2, h3, h4⟩ := insertAt_ok (s := { s with doc := d1 }) (pl := .lastChild 0) hM.fine hM.here hM.loose hM.fine.root
  refine ⟨(), d2, ?_, h3, hM.ext.trans h4⟩
  unfold insertDoctype
  rw [bind_some (dom_new h1)]
  exact h2

theorem docOnly_addMissing (n : Nat) : ∀ as : Attrs, DocOnly (addMissing n as)
  | [] => docOnly_pure ()
  | (k, v) :: r => by
    refine docOnly_bind (docOnly_whenM ?_) fun _ => docOnly_addMissing n r
    intro s hs
    obtain ⟨d', h1, h2, h3⟩ := fine_setAttribute hs.fine n k v
    exact ⟨(), d', by rw [bind_some (dom_eq h1)]; rfl, h2, h3⟩

theorem docOnly_addAttrs (n : Nat) (as : Attrs) : DocOnly (addAttrs n as) := docOnly_whenM (docOnly_addMissing n as)

end Verif.TreeBuild
