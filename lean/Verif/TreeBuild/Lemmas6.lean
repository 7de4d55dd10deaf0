import Verif.TreeBuild.Lemmas5

/-!
# In the body and in the head
-/
namespace Verif.TreeBuild
open Verif Verif.Dom

/-! ## Resetting the mode -/

theorem popTo_cases (p : Nat → Bool) : ∀ l : List Nat, (popTo p l = [] ∧ ∀ x ∈ l, p x = false) ∨ ∃ a x, l = a ++ x :: popTo p l ∧ p x = true
  | [] => .inl ⟨rfl, by simp⟩
  | y :: r => by
    unfold popTo
    by_cases hy : p y = true
    · rw [if_pos hy]; exact .inr ⟨[], y, rfl, hy⟩
    · rw [if_neg hy]
      rcases popTo_cases p r with ⟨h1, h2⟩ | ⟨a, x, h1, h2⟩
      · refine .inl ⟨h1, ?_⟩
        intro x hx
        rcases List.mem_cons.1 hx with rfl | hx
        · exact Bool.eq_false_iff.2 hy
        · exact h2 x hx
      · exact .inr ⟨y :: a, x, by rw [List.cons_append, ← h1], h2⟩

theorem late_plain {m : Mode} (h : late m) : plain m := h.2.2.2.2.2.2

theorem modeFor_plain {s : St} (h : ∀ m ∈ s.templateModes, late m) (last : Bool) (n : Nat) (below : List Nat) {m : Mode}
    (hm : modeFor s last n below = some m) : plain m := by
  have hsel : ∀ l, plain (selectMode s.doc l) := by
    intro l
    induction l with
    | nil => unfold selectMode; decide
    | cons x r ih =>
      unfold selectMode
      split
      · decide
      · split
        · decide
        · exact ih
  have htm : plain (s.templateModes.head?.getD .inTemplate) := by
    cases ht : s.templateModes with
    | nil => decide
    | cons x r => exact late_plain (h x (by rw [ht]; simp))
  have ite : ∀ {c : Bool} {a : Mode} {b : Option Mode}, (c = true → plain a) → (∀ m, b = some m → plain m) →
      ∀ m, (if c then some a else b) = some m → plain m := by
    intro c a b ha hb m h
    split at h
    · next hc => cases h; exact ha hc
    · exact hb m h
  refine (?_ : ∀ m, modeFor s last n below = some m → plain m) m hm
  unfold modeFor
  dsimp only
  refine ite (fun _ => ?_) ?_
  · cases last with
    | false => exact hsel _
    | true => show plain .inSelect; decide
  refine ite (fun _ => by decide) (ite (fun _ => by decide) (ite (fun _ => by decide) (ite (fun _ => by decide) (ite (fun _ => by decide)
    (ite (fun _ => by decide) (ite (fun _ => htm) (ite (fun _ => by decide) (ite (fun _ => by decide) (ite (fun _ => by decide)
    (ite (fun _ => ?_) fun m h => by cases h))))))))))
  cases s.head with
  | none => show plain .beforeHead; decide
  | some x => show plain .afterHead; decide

theorem resetMode_plain {s : St} (h : ∀ m ∈ s.templateModes, late m) : ∀ l : List Nat, plain (resetMode s l)
  | [] => by unfold resetMode; decide
  | [x] => by
    unfold resetMode
    cases hm : modeFor s true (s.context.getD x) [] with
    | none => decide
    | some m => exact modeFor_plain h _ _ _ hm
  | x :: y :: r => by
    unfold resetMode
    cases hm : modeFor s false x (y :: r) with
    | none => exact resetMode_plain h (y :: r)
    | some m => exact modeFor_plain h _ _ _ hm

theorem reset_ok {s : St} (hs : Good s) (he : s.framesetOk = true → s.opened = []) :
    Good { s with mode := resetMode s s.opened } ∧ Shift s { s with mode := resetMode s s.opened } ∧
      (s.opened = [] → resetMode s s.opened = .inBody) := by
  have hn : s.opened = [] → resetMode s s.opened = .inBody := fun h => by rw [h]; rfl
  refine ⟨good_same hs _ s.original s.queue s.switch s.finished s.quirks s.ignoreLf, ⟨⟨Ext.refl _, rfl, id, .inr (.inr ⟨?_, ?_⟩)⟩, rfl, rfl⟩, hn⟩
  · exact resetMode_plain hs.ok.modes _
  · intro hf
    show late (resetMode s s.opened)
    rw [hn (he hf)]; decide

/-- popping up to one of the elements after which the mode is reset -/
theorem popNamed_ok {s : St} (hs : Good s) {k : String} (hk : k ∈ resetters) :
    ∃ l, popNamed k.toList s = some ((), { s with opened := l }) ∧ Good { s with opened := l } ∧ Mild s { s with opened := l } ∧
      (s.framesetOk = true → l = []) ∧
      (l = [] ∧ (∀ x ∈ s.opened, (is (tag s.doc x) k && isHtml s.doc x) = false) ∨ depth s.doc l < depth s.doc s.opened) := by
  refine ⟨_, rfl, good_suffix hs (popTo_suffix _ _), mild_suffix (popTo_suffix _ _), ?_, ?_⟩
  · intro hf
    rcases popTo_cases (fun i => decide (tag s.doc i = k.toList) && isHtml s.doc i) s.opened with ⟨h, _⟩ | ⟨a, x, h1, h2⟩
    · exact h
    · have hx : x ∈ s.opened := by rw [h1]; simp
      rw [Bool.and_eq_true, decide_eq_true_eq] at h2
      have := (hs.bare hf).none x hx h2.2
      rw [h2.1] at this
      have h3 : oneOf k.toList resetters = true := oneOf_iff.2 ⟨k, hk, rfl⟩
      rw [h3] at this; cases this
  · rcases popTo_cases (fun i => decide (tag s.doc i = k.toList) && isHtml s.doc i) s.opened with ⟨h, h'⟩ | ⟨a, x, h1, h2⟩
    · exact .inl ⟨h, h'⟩
    · rw [Bool.and_eq_true, decide_eq_true_eq] at h2
      refine .inr ?_
      have h3 : oneOf (tag s.doc x) resetters = true := oneOf_iff.2 ⟨k, hk, h2.1⟩
      have : depth s.doc s.opened = depth s.doc (a ++ x :: popTo (fun i => decide (tag s.doc i = k.toList) && isHtml s.doc i) s.opened) :=
        congrArg _ h1
      rw [this]
      unfold depth
      rw [List.filter_append, List.filter_cons, if_pos h3, List.length_append, List.length_cons]
      omega

theorem depth_pos {d : Doc} {l : List Nat} {x : Nat} (hx : x ∈ l) (h : oneOf (tag d x) resetters = true) : 0 < depth d l := by
  unfold depth
  exact List.length_pos_of_mem (List.mem_filter.2 ⟨hx, h⟩)

theorem depth_open {s : St} {k : String} (hk : k ∈ resetters) (h : hasOpen k s = true) : 0 < depth s.doc s.opened := by
  unfold hasOpen at h
  obtain ⟨x, hx, h1⟩ := List.any_eq_true.1 h
  exact depth_pos hx (oneOf_iff.2 ⟨k, hk, is_iff.1 h1⟩)

/-- closing one of them -/
theorem closeNamed_ok {s : St} (hs : Good s) {k : String} (hk : k ∈ resetters) :
    ∃ s', ((do popNamed k.toList; reset) : M Unit) s = some ((), s') ∧ Good s' ∧ Shift s s' ∧
      depth s'.doc s'.opened ≤ depth s.doc s.opened ∧
      (s'.opened = [] ∧ s'.mode = .inBody ∧ (∀ x ∈ s.opened, (is (tag s.doc x) k && isHtml s.doc x) = false) ∨
        depth s'.doc s'.opened < depth s.doc s.opened) := by
  obtain ⟨l, h1, h2, h3, h4, h5⟩ := popNamed_ok hs hk
  obtain ⟨h6, h7, h8⟩ := reset_ok h2 h4
  refine ⟨_, by rw [bind_some h1]; rfl, h6, soft_shift h3.toSoft h7, h3.depth, ?_⟩
  rcases h5 with ⟨h5, h9⟩ | h5
  · exact .inl ⟨h5, h8 h5, h9⟩
  · exact .inr h5

theorem closeNamed_open {s : St} (hs : Good s) {k : String} (hk : k ∈ resetters) (ho : hasOpen k s = true) :
    ∃ s', ((do popNamed k.toList; reset) : M Unit) s = some ((), s') ∧ Good s' ∧ Shift s s' ∧
      depth s'.doc s'.opened < depth s.doc s.opened := by
  obtain ⟨s', h1, h2, h3, _, h5⟩ := closeNamed_ok hs hk
  refine ⟨s', h1, h2, h3, ?_⟩
  rcases h5 with ⟨h5, _⟩ | h5
  · rw [h5]; exact depth_open hk ho
  · exact h5

theorem scope_open {d : Doc} {t : Str} {sc : Scope} : ∀ {l : List Nat}, inScopeOf d t sc l = true → ∃ x ∈ l, tag d x = t ∧ isHtml d x = true
  | [], h => by cases h
  | x :: r, h => by
    unfold inScopeOf at h
    split at h
    · cases h
    · split at h
      · next h1 =>
        rw [Bool.and_eq_true, decide_eq_true_eq] at h1
        exact ⟨x, by simp, h1⟩
      · split at h
        · cases h
        · obtain ⟨y, hy, h1⟩ := scope_open h
          exact ⟨y, List.mem_cons_of_mem _ hy, h1⟩

theorem open_of_scope {s : St} {k : String} {sc : Scope} (h : inScopeS k sc s = true) : hasOpen k s = true := by
  obtain ⟨x, hx, h1, _⟩ := scope_open h
  exact List.any_eq_true.2 ⟨x, hx, is_iff.2 h1⟩

theorem okay_stop {P : Mode → Prop} : Okay P .eof (fin stop) := fun s hs _ =>
  ⟨.done, _, rfl, ⟨Ext.refl _, rfl, id, .inl ⟨rfl, rfl⟩⟩, good_same hs s.mode s.original s.queue s.switch true s.quirks s.ignoreLf,
    .inl rfl, .inl ⟨rfl, rfl⟩⟩

theorem good_modes {s : St} (hs : Good s) {l : List Mode} (h : ∀ m ∈ l, late m) : Good { s with templateModes := l } :=
  ⟨⟨hs.ok.base, hs.ok.active, hs.ok.head, hs.ok.form, hs.ok.context, h⟩, hs.bare⟩

theorem soft_modes (s : St) (l : List Mode) : Soft s { s with templateModes := l } := ⟨Ext.refl _, rfl, rfl, rfl, rfl, rfl, id⟩

theorem good_tail {s : St} (hs : Good s) : Good { s with templateModes := s.templateModes.tail } :=
  good_modes hs fun m hm => hs.ok.modes m (List.mem_of_mem_tail hm)

theorem post_re {t : Token} {m : M Unit} {s s' : St} (h1 : m s = some ((), s')) (h2 : Good s') (h3 : Shift s s') (h4 : Low s t s' t) :
    ∃ r s', re m s = some (r, s') ∧ Post t s r s' :=
  ⟨.again, s', by unfold re; rw [bind_some h1]; rfl, h3.toTurn, h2, h3.queue, h3.finished, h4⟩

theorem eofTemplate_okay {P : Mode → Prop} : Okay P .eof eofTemplate := by
  intro s hs hp
  unfold eofTemplate ifM
  split
  · next ho =>
    obtain ⟨l, h1, h2, h3, h4, h5⟩ := popNamed_ok hs (k := "template") (by decide)
    have h6 : Good { s with opened := l, active := afterMarker s.active } :=
      good_active h2 fun x hx => h2.ok.active x ((afterMarker_suffix s.active).mem hx)
    obtain ⟨h7, h8, h9⟩ := reset_ok h6 h4
    refine post_re (m := _) (s' := _) (by rw [bind_some h1]; rfl) (good_tail h7)
      (shift_soft (soft_shift (h3.toSoft.trans (mild_active _ _).toSoft) h8) (soft_modes _ _)) (.inl ?_)
    show depth s.doc l < depth s.doc s.opened
    rcases h5 with ⟨h5, _⟩ | h5
    · rw [h5]; exact depth_open (by decide) ho
    · exact h5
  · exact okay_stop s hs hp

theorem does_endTemplate : Does Shift ((do
    implied none true
    popNamed "template".toList
    clearMarker
    upd fun s => { s with templateModes := s.templateModes.tail }
    reset) : M Unit) := by
  refine seq_shift (does_implied _ _).soft fun _ => ?_
  intro s hs
  obtain ⟨l, h1, h2, h3, h4, _⟩ := popNamed_ok hs (k := "template") (by decide)
  have h6 : Good { s with opened := l, active := afterMarker s.active } :=
    good_active h2 fun x hx => h2.ok.active x ((afterMarker_suffix s.active).mem hx)
  obtain ⟨h7, h8, _⟩ := reset_ok (good_tail h6) h4
  exact ⟨(), _, by rw [bind_some h1]; rfl, h7,
    soft_shift ((h3.toSoft.trans (mild_active _ _).toSoft).trans (soft_modes _ _)) h8⟩

theorem endTemplate_okay {P : Mode → Prop} {t : Token} (ht : t ≠ .eof) : Okay P t endTemplate :=
  okay_ifM (okay_fin ht does_endTemplate) (okay_ignore ht)

/-- the state after the start tag of a template -/
def St.templated (s : St) (d : Doc) (i : Nat) : St :=
  { s with
    doc := d
    opened := i :: s.opened
    active := none :: s.active
    framesetOk := false
    mode := .inTemplate
    templateModes := .inTemplate :: s.templateModes }

theorem does_startTemplate (n : Str) (as : Attrs) : Does (fun s s' => Shift s s' ∧ s'.framesetOk = false) ((do
    let e ← insertHtml n as
    pushMarker
    noFrameset
    upd fun s => { s with mode := .inTemplate, templateModes := .inTemplate :: s.templateModes }
    let c ← ask current
    whenM (fun s => isElement s.doc e) (do let _ ← dom (.setTemplate e c); pure ())) : M Unit) := by
  intro s hs
  obtain ⟨i, d', h1, h2, h3, _, h5, _, _, h8⟩ := insertElement_eq n htmlNs as hs.ok.base
  have hok := ok_push hs.ok h2 h3 h5
  have hg : Good (s.templated d' i) := by
    refine ⟨⟨hok.base, ?_, hok.head, hok.form, hok.context, ?_⟩, fun h => by cases h⟩
    · intro x hx
      rcases List.mem_cons.1 hx with hx | hx
      · cases hx
      · exact hok.active x hx
    · intro m hm
      rcases List.mem_cons.1 hm with rfl | hm
      · decide
      · exact hok.modes m hm
  obtain ⟨d2, h9, h10, h11⟩ := fine_setTemplate h2 i h5
  refine ⟨(), (s.templated d2 i), ?_, good_doc hg h10 h11,
    ⟨⟨h3.trans h11, rfl, (fun h => by cases h), .inr (.inr ⟨(by show plain .inTemplate; decide), fun h => by cases h⟩)⟩, rfl, rfl⟩, rfl⟩
  unfold insertHtml
  rw [bind_some h1]
  show whenM (fun s => isElement s.doc i) (do let _ ← dom (.setTemplate i i); pure ())
    (s.templated d' i) = _
  unfold whenM ifM
  rw [if_pos (show (fun s : St => isElement s.doc i) (s.templated d' i) = true from h8),
    bind_some (dom_eq (s := s.templated d' i) h9)]
  rfl

theorem startTemplate_okay {P : Mode → Prop} {t : Token} (ht : t ≠ .eof) (n : Str) (as : Attrs) : Okay P t (startTemplate n as) :=
  okay_fin ht (does_mono (does_startTemplate n as) fun _ _ h => h.1)

/-! ## The tags handled in the head -/

theorem docOnly_rootAttrs (as : Attrs) : DocOnly (fun s => match s.opened.getLast? with
    | none => some ((), s)
    | some n => addAttrs n as s) := by
  intro s hs
  dsimp only
  cases h : s.opened.getLast? with
  | none => exact ⟨(), s.doc, rfl, hs.fine, Ext.refl _⟩
  | some n => exact docOnly_addAttrs n as s hs

theorem startHtml_okay {P : Mode → Prop} {t : Token} (ht : t ≠ .eof) (as : Attrs) : Okay P t (startHtml as) :=
  okay_ifM (okay_ignore ht) (okay_mild ht (docOnly_rootAttrs as).does)

theorem does_script (c : HtmlTok.Content) {n : Str} (as : Attrs) (hq : quiet n) : Does Shift (do insert_ n as; textMode c) :=
  seq_shift (does_insert_ as hq).soft fun _ => does_textMode _

theorem inHead_start {P : Mode → Prop} (env : Env) {n : Str} (sc : Bool) (as : Attrs) (hn : oneOf n headNames = true) :
    Okay P (.startTag n sc as) (inHead env (.startTag n sc as)) := by
  have ht : (.startTag n sc as : Token) ≠ .eof := by intro h; cases h
  have hno : is n "noscript" = false := oneOf_elim (fun n => is n "noscript" = false) (by decide) hn
  unfold inHead
  refine okay_ite (fun _ => startHtml_okay ht as) fun _ => ?_
  refine okay_ite (fun _ => okay_mild ht (does_insertVoid _ _)) fun h1 => ?_
  refine okay_ite (fun _ => okay_mild ht (does_insertVoid _ _)) fun h2 => ?_
  refine okay_ite (fun h => okay_fin ht (does_rcData as (by rw [is_iff.1 h]; decide))) fun h3 => ?_
  refine okay_ite (fun h => absurd h (by rw [hno]; simp)) fun _ => ?_
  refine okay_ite (fun h => okay_fin ht (does_rawData as (oneOf_elim quiet (by decide) h))) fun h4 => ?_
  refine okay_ite (fun h => absurd h (by rw [hno]; simp)) fun _ => ?_
  refine okay_ite (fun h => okay_fin ht (does_script _ as (by rw [is_iff.1 h]; decide))) fun h5 => ?_
  refine okay_ite (fun _ => startTemplate_okay ht n as) fun h6 => ?_
  exfalso
  have := oneOf_elim (fun n => (oneOf n ["base", "basefont", "bgsound", "link"] || is n "meta" || is n "title" ||
    oneOf n ["noframes", "style"] || is n "script" || is n "template") = true) (by decide +kernel) hn
  simp only [Bool.or_eq_true] at this
  rcases this with ((((h | h) | h) | h) | h) | h
  exacts [h1 h, h2 h, h3 h, h4 h, h5 h, h6 h]

theorem inHead_end {P : Mode → Prop} (env : Env) {n : Str} (hn : is n "template" = true) :
    Okay P (.endTag n) (inHead env (.endTag n)) := by
  obtain rfl := is_iff.1 hn
  exact endTemplate_okay (by intro h; cases h)

end Verif.TreeBuild
