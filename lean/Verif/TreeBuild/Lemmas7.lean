import Verif.TreeBuild.Lemmas6

/-!
# In the body
-/
namespace Verif.TreeBuild
open Verif Verif.Dom

theorem fin_eq {m : M Unit} {s s' : St} {a : Unit} (h : m s = some (a, s')) : fin m s = some (.done, s') := by
  unfold fin; rw [bind_some h]; rfl

theorem does_openForm (as : Attrs) {n : Str} (hn : n = "form".toList) (c : St → Bool) :
    Does Mild (do let e ← insertHtml n as; whenM c (setForm (some e))) := by
  intro s hs
  have hq : quiet n := by rw [hn]; decide
  obtain ⟨i, d', h1, h2, h3, _, h5, h6, h7, _⟩ := insertElement_eq n htmlNs as hs.ok.base
  have hg : Good { s with doc := d', opened := i :: s.opened } := good_push hs h2 h3 h5 (h6 ▸ hq.2) (fun _ => h6 ▸ hq.1)
  have hm : Mild s { s with doc := d', opened := i :: s.opened } :=
    ⟨soft_push s h3, Nat.le_of_eq (depth_push hs.ok.base h3 (h6 ▸ hq.1))⟩
  unfold insertHtml
  rw [bind_some h1]
  unfold whenM ifM
  split
  · exact ⟨(), _, rfl, good_form hg (by intro x hx; cases hx; exact ⟨h5, h6.trans hn⟩), hm.trans (mild_form _ _)⟩
  · exact ⟨(), _, rfl, hg, hm⟩

/-- actions that change neither the mode nor the queue, one after the other -/
macro "mild" : tactic => `(tactic| repeat' first
  | exact does_pure _
  | exact does_pop
  | exact does_popNamed _
  | exact does_popAny _
  | exact does_implied _ _
  | exact does_clearTo _
  | exact does_closeP
  | exact does_closePInScope
  | exact does_noFrameset
  | exact does_pushMarker
  | exact does_clearMarker
  | exact does_reconstruct
  | exact does_otherEndTag _
  | exact does_closeItems _
  | exact does_noForm
  | exact does_ignoreLf _
  | exact does_insertVoid _ _
  | exact does_insert_ _ (by first | assumption | decide)
  | exact (docOnly_insertText _).does
  | exact (docOnly_insertComment _).does
  | refine does_whenM ?_
  | refine does_ifM ?_ ?_
  | refine does_bind ?_ (fun _ => ?_))

theorem does_lfNo : Does Mild (upd fun s => { s with ignoreLf := true, framesetOk := false }) := does_upd fun s hs =>
  ⟨⟨⟨hs.ok.base, hs.ok.active, hs.ok.head, hs.ok.form, hs.ok.context, hs.ok.modes⟩, fun h => by cases h⟩,
    ⟨⟨Ext.refl _, rfl, rfl, rfl, rfl, rfl, fun h => by cases h⟩, Nat.le_refl _⟩⟩

theorem does_switch (c : HtmlTok.Content) : Does Mild (upd fun s => { s with switch := some c }) := does_upd fun s hs =>
  ⟨good_same hs s.mode s.original s.queue (some c) s.finished s.quirks s.ignoreLf,
    ⟨⟨Ext.refl _, rfl, rfl, rfl, rfl, rfl, id⟩, Nat.le_refl _⟩⟩

theorem quiet_rest {n : Str} (h1 : ¬ oneOf n headNames = true) (h2 : ¬ is n "table" = true) (h3 : ¬ is n "select" = true)
    (h4 : ¬ is n "body" = true) : quiet n := by
  refine ⟨?_, Bool.eq_false_iff.2 h4⟩
  refine Bool.eq_false_iff.2 fun h => ?_
  obtain ⟨k, hk, rfl⟩ := oneOf_iff.1 h
  simp only [resetters, List.mem_cons, List.not_mem_nil, or_false] at hk
  rcases hk with rfl | rfl | rfl
  · exact h1 (by decide)
  · exact h2 (by decide)
  · exact h3 (by decide)

section
variable {P : Mode → Prop} {t : Token} (ht : t ≠ .eof)
include ht

theorem startItem_okay (names : List String) {n : Str} (hq : quiet n) (as : Attrs) : Okay P t (startItem names n as) := by
  intro s hs _
  obtain ⟨_, s1, h1, h2, h3⟩ := does_noFrameset s hs
  have key : ∃ r s', ifM (fun s => s.opened.isEmpty) ignore (fin (do
      fun s => closeItems names s.opened s
      closePInScope
      insert_ n as)) s1 = some (r, s') ∧ Post t s1 r s' := by
    refine okay_ifM (P := fun _ => True) (okay_ignore ht) (okay_mild ht ?_) s1 h2 trivial
    mild
  obtain ⟨r, s', h4, h5⟩ := key
  refine ⟨r, s', ?_, soft_turn h3.toSoft h5.toTurn, h5.good, ?_⟩
  · unfold startItem; rw [bind_some h1]; exact h4
  · cases h1; exact h5.out

theorem endBlock_okay (n : Str) (sc : Scope) (except : Option Str) {after : M Unit} (ha : Does Mild after) :
    Okay P t (endBlock n sc except after) := by
  refine okay_ifM (okay_mild ht ?_) (okay_ignore ht)
  refine does_bind (does_implied _ _) fun _ => does_bind (does_popNamed _) fun _ => ha

theorem startForm_okay {n : Str} (hn : n = "form".toList) (as : Attrs) : Okay P t (startForm n as) := by
  refine okay_ifM (okay_ignore ht) (okay_mild ht ?_)
  exact does_bind does_closePInScope fun _ => does_openForm as hn _

omit ht in
theorem anchor_form {d : Doc} {i : Nat} (h : tag d i = "form".toList) : anchor d i = false := anchor_tag (by rw [h]; decide)

theorem endForm_okay (n : Str) : Okay P t (endForm n) := by
  refine okay_ifM (endBlock_okay ht n _ _ (does_pure ())) ?_
  intro s hs _
  dsimp only
  cases hf : s.form with
  | none =>
    exact ⟨.done, _, rfl, (mild_form s none).toSoft.shift.toTurn, good_form hs (by intro x hx; cases hx), .inl rfl, .inr ⟨ht, rfl⟩⟩
  | some f =>
    obtain ⟨h1, h2⟩ := hs.ok.form f hf
    have hg : Good { s with form := none } := good_form hs (by intro x hx; cases hx)
    have key : ∃ s', whenM (inScope n .regular) (do implied none false; removeOpen f) { s with form := none } = some ((), s') ∧ Good s' ∧
        Mild { s with form := none } s' := by
      unfold whenM ifM
      split
      · obtain ⟨_, s2, h3, h4, h5⟩ := does_implied none false _ hg
        obtain ⟨s3, h6, h7, h8⟩ := removeOpen_ok h4 (n := f) (anchor_form ((h5.ext f h1).2.1.trans h2))
        exact ⟨s3, by rw [bind_some h3]; exact h6, h7, h5.trans h8⟩
      · exact ⟨_, rfl, hg, Mild.refl _⟩
    obtain ⟨s', h3, h4, h5⟩ := key
    refine ⟨.done, s', ?_, ((mild_form s none).trans h5).toSoft.shift.toTurn, h4, .inl h5.queue, .inr ⟨ht, h5.finished⟩⟩
    exact fin_eq (m := do setForm none; whenM (inScope n .regular) (do implied none false; removeOpen f)) h3

theorem startForeign_okay {n nsp : Str} (sc : Bool) (as : Attrs) (hb : is n "body" = false) (hns : nsp ≠ htmlNs) :
    Okay P t (startForeign n nsp sc as) := by
  refine okay_fin ht (Does.shift ?_)
  refine does_bind does_reconstruct.soft fun _ => does_bind (does_insertElement as hb fun h => absurd h hns) fun _ => ?_
  exact does_ite (fun _ => does_pop.soft) fun _ => does_pure ()

omit ht in
theorem mem_formattingNamed (d : Doc) (k : String) : ∀ {l : List (Option Nat)} {i : Nat}, formattingNamed d k l = some i → some i ∈ l
  | [], _, h => by cases h
  | none :: _, _, h => by cases h
  | some j :: r, i, h => by
    unfold formattingNamed at h
    split at h
    · cases h; simp
    · exact List.mem_cons_of_mem _ (mem_formattingNamed d k h)

theorem startA_okay {n : Str} (hn : fmt n) (as : Attrs) : Okay P t (startA n as) := by
  refine okay_fin ht (Does.shift ?_)
  refine does_bind ?_ fun _ => does_bind does_reconstruct.soft fun _ => (does_formatting as hn).soft
  intro s hs
  dsimp only
  cases hf : formattingNamed s.doc "a" s.active with
  | none => exact ⟨(), s, rfl, hs, Soft.refl s⟩
  | some i =>
    obtain ⟨h1, h2⟩ := hs.ok.active i (mem_formattingNamed s.doc "a" hf)
    obtain ⟨_, s1, h3, h4, h5⟩ := does_adoption n s hs
    obtain ⟨s2, h6, h7, h8⟩ := removeOpen_ok h4 (n := i) (anchor_fmt (by rw [(h5.ext i h1).2.1]; exact h2))
    obtain ⟨_, s3, h9, h10, h11⟩ := does_removeActive i s2 h7
    exact ⟨(), s3, by dsimp only; rw [bind_some h3, bind_some h6]; exact h9, h10, (h5.trans h8.toSoft).trans h11.toSoft⟩

theorem startFormatting_okay {n : Str} (hn : fmt n) (as : Attrs) : Okay P t (startFormatting n as) :=
  okay_mild ht (does_bind does_reconstruct fun _ => does_formatting as hn)

theorem startNobr_okay {n : Str} (hn : fmt n) (as : Attrs) : Okay P t (startNobr n as) := by
  refine okay_fin ht (Does.shift ?_)
  refine does_bind does_reconstruct.soft fun _ => does_bind (does_whenM ?_) fun _ => (does_formatting as hn).soft
  exact does_bind (does_adoption n) fun _ => does_reconstruct.soft

theorem startBody_okay (as : Attrs) : Okay P t (startBody as) := by
  intro s hs hp
  unfold startBody
  split
  · exact okay_ignore ht s hs hp
  · split
    · exact okay_ignore ht s hs hp
    · refine post_fin ht (Does.shift (does_bind does_noFrameset.soft fun _ => ?_)) hs
      split
      · exact (docOnly_addAttrs _ as).does.soft
      · exact does_pure ()

omit ht in
theorem popToHtml_some {d : Doc} : ∀ {l : List Nat} {y : Nat}, y ∈ l → is (tag d y) "html" = true →
    ∃ r, popToHtml d l = some r ∧ r <:+ l
  | x :: r, y, hy, h => by
    unfold popToHtml
    by_cases hx : is (tag d x) "html" = true
    · rw [if_pos hx]; exact ⟨_, rfl, List.suffix_refl _⟩
    · rw [if_neg hx]
      rcases List.mem_cons.1 hy with rfl | hy
      · exact absurd h hx
      · obtain ⟨l, h1, h2⟩ := popToHtml_some hy h
        exact ⟨l, h1, h2.trans (List.suffix_cons x r)⟩

theorem startFrameset_okay {n : Str} (hn : n = "frameset".toList) (as : Attrs) : Okay P t (startFrameset n as) := by
  intro s hs hp
  unfold startFrameset
  split
  · exact okay_ignore ht s hs hp
  · next second h2 =>
    split
    · exact okay_ignore ht s hs hp
    · next hb =>
      split
      · exact okay_ignore ht s hs hp
      · next hf =>
        have hf' : s.framesetOk = true := by simpa using hf
        have hb' : is (tag s.doc second) "body" = true := by simpa using hb
        have hB := hs.bare hf'
        have hmem : second ∈ s.opened := mem_openVec.1 (List.mem_of_getElem? h2)
        have hanchor : anchor s.doc second = true := by
          unfold anchor
          rw [hB.body second hmem hb', is_iff.1 hb']; decide
        obtain ⟨y, hy⟩ : ∃ y, (s.opened.filter (anchor s.doc)).getLast? = some y := by
          cases hl : s.opened.filter (anchor s.doc) with
          | nil =>
            have : second ∈ s.opened.filter (anchor s.doc) := List.mem_filter.2 ⟨hmem, hanchor⟩
            rw [hl] at this; cases this
          | cons a r => exact ⟨_, List.getLast?_eq_some_getLast (by simp)⟩
        have hyh := hB.base y hy
        have hym : y ∈ s.opened := (List.mem_filter.1 (List.mem_of_getLast? hy)).1
        -- the three parts
        have hd : DocOnly (whenM (fun s => (Dom.parent s.doc second).isSome) (do let _ ← dom (.detach second); pure ())) := by
          refine docOnly_whenM ?_
          intro s1 hs1
          obtain ⟨d', e1, e2, e3, _⟩ := fine_detach hs1.fine second
          exact ⟨(), d', by rw [bind_some (dom_eq e1)]; rfl, e2, e3⟩
        obtain ⟨_, d1, e1, e2, e3⟩ := hd s hs.ok.base
        have hg1 : Good { s with doc := d1 } := good_doc hs e2 e3
        obtain ⟨l, e4, e5⟩ := popToHtml_some (d := d1) hym (by rw [(e3 y (hs.ok.base.opened y hym)).2.1]; exact hyh)
        have hg2 : Good { s with doc := d1, opened := l } := good_suffix hg1 e5
        obtain ⟨_, s3, e6, hg3, e7⟩ := does_insert_ (nm := n) as (by rw [hn]; decide) _ hg2
        obtain ⟨_, s4, e8, hg4, e9⟩ := does_setMode .inFrameset s3 hg3
        have hsoft : Soft s { s with doc := d1, opened := l } := ⟨e3, rfl, rfl, rfl, rfl, rfl, id⟩
        have hsh := soft_shift (hsoft.trans e7.toSoft) (e9.shift (by decide))
        refine ⟨.done, s4, ?_, hsh.toTurn, hg4, .inl hsh.queue, .inr ⟨ht, hsh.finished⟩⟩
        refine fin_eq (a := ()) ?_
        rw [bind_some e1]
        exact (bind_some (a := ()) (s' := { s with doc := d1, opened := l }) (by
          show (popToHtml d1 s.opened).map _ = _
          rw [e4]; rfl)).trans (by rw [bind_some e6]; exact e8)
end

theorem image_okay {P : Mode → Prop} {n : Str} (hn : is n "image" = true) (sc : Bool) (as : Attrs) :
    Okay P (.startTag n sc as) (pure (.other (.startTag "img".toList sc as)) : M Next) := by
  intro s hs _
  obtain rfl := is_iff.1 hn
  refine ⟨_, s, rfl, (Soft.refl s).shift.toTurn, hs, rfl, rfl, .inr ⟨Nat.le_refl _, ?_⟩, Nat.le_refl _, ?_, ?_⟩
  · have h1 : rank s.mode (.startTag "img".toList sc as) = rank s.mode (.startTag "image".toList sc as) := by
      cases s.mode <;> rfl
    rw [h1]
    have h2 : image (.startTag "img".toList sc as) = 0 := rfl
    have h3 : image (.startTag "image".toList sc as) = 1 := rfl
    omega
  · constructor <;> intro h <;> cases h
  · intro n sc' as' h
    cases h
    exact .inl (by decide)

theorem inBodyStart_okay {P : Mode → Prop} (env : Env) (n : Str) (sc : Bool) (as : Attrs) :
    Okay P (.startTag n sc as) (inBodyStart env n sc as) := by
  have ht : (.startTag n sc as : Token) ≠ .eof := by intro h; cases h
  unfold inBodyStart
  refine okay_ite (fun _ => startHtml_okay ht as) fun _ => ?_
  refine okay_ite (fun h => inHead_start env sc as h) fun hhead => ?_
  refine okay_ite (fun _ => startBody_okay ht as) fun hbody => ?_
  refine okay_ite (fun h => startFrameset_okay ht (is_iff.1 h) as) fun _ => ?_
  refine okay_ite (fun h => okay_mild ht ?_) fun _ => ?_
  · have hq : quiet n := oneOf_elim quiet (by decide +kernel) h
    mild
  refine okay_ite (fun h => okay_mild ht ?_) fun _ => ?_
  · have hq : quiet n := oneOf_elim quiet (by decide +kernel) h
    mild
  refine okay_ite (fun h => okay_mild ht ?_) fun _ => ?_
  · have hq : quiet n := oneOf_elim quiet (by decide +kernel) h
    refine does_bind does_closePInScope fun _ => does_bind (does_insert_ as hq) fun _ => does_lfNo
  refine okay_ite (fun h => startForm_okay ht (is_iff.1 h) as) fun _ => ?_
  refine okay_ite (fun h => startItem_okay ht _ (by rw [is_iff.1 h]; decide) as) fun _ => ?_
  refine okay_ite (fun h => startItem_okay ht _ (oneOf_elim quiet (by decide +kernel) h) as) fun _ => ?_
  refine okay_ite (fun h => okay_mild ht ?_) fun _ => ?_
  · have hq : quiet n := by rw [is_iff.1 h]; decide
    refine does_bind does_closePInScope fun _ => does_bind (does_insert_ as hq) fun _ => does_switch _
  refine okay_ite (fun h => okay_mild ht ?_) fun _ => ?_
  · have hq : quiet n := by rw [is_iff.1 h]; decide
    mild
  refine okay_ite (fun h => startA_okay ht (by rw [is_iff.1 h]; unfold fmt; decide) as) fun _ => ?_
  refine okay_ite (fun h => startFormatting_okay ht (oneOf_elim fmt (by unfold fmt; decide +kernel) h) as) fun _ => ?_
  refine okay_ite (fun h => startNobr_okay ht (by rw [is_iff.1 h]; unfold fmt; decide) as) fun _ => ?_
  refine okay_ite (fun h => okay_mild ht ?_) fun _ => ?_
  · have hq : quiet n := oneOf_elim quiet (by decide +kernel) h
    mild
  refine okay_ite (fun h => okay_fin ht ?_) fun htable => ?_
  · refine seq_shift ?_ fun _ => does_pushNo_then ?_
    · exact (does_whenM does_closePInScope).soft
    · exact does_mono (does_setMode .inTable) fun _ _ h => h.shift (by decide)
  refine okay_ite (fun h => okay_mild ht ?_) fun _ => ?_
  · mild
  refine okay_ite (fun h => okay_mild ht ?_) fun _ => ?_
  · refine does_bind does_reconstruct fun _ => does_bind (does_insertVoid _ _) fun _ => ?_
    exact does_ite (fun _ => does_noFrameset) fun _ => does_pure ()
  refine okay_ite (fun h => okay_mild ht (does_insertVoid _ _)) fun _ => ?_
  refine okay_ite (fun h => okay_mild ht ?_) fun _ => ?_
  · mild
  refine okay_ite (fun h => image_okay h sc as) fun _ => ?_
  refine okay_ite (fun h => okay_fin ht ?_) fun _ => ?_
  · have hq : quiet n := by rw [is_iff.1 h]; decide
    refine seq_shift (does_insert_ as hq).soft fun _ => seq_shift (does_ignoreLf _).soft fun _ => ?_
    exact seq_shift_soft (does_textMode _) fun _ => does_noFrameset.soft
  refine okay_ite (fun h => okay_fin ht ?_) fun _ => ?_
  · have hq : quiet n := by rw [is_iff.1 h]; decide
    exact seq_shift does_closePInScope.soft fun _ => seq_shift does_reconstruct.soft fun _ => seq_shift does_noFrameset.soft fun _ =>
      does_rawData as hq
  refine okay_ite (fun h => okay_fin ht ?_) fun _ => ?_
  · have hq : quiet n := by rw [is_iff.1 h]; decide
    exact seq_shift does_noFrameset.soft fun _ => does_rawData as hq
  refine okay_ite (fun h => okay_fin ht (does_rawData as (by rw [is_iff.1 h]; decide))) fun _ => ?_
  refine okay_ite (fun h => okay_fin ht (does_rawData as (by
    rw [Bool.and_eq_true] at h
    rw [is_iff.1 h.1]; decide))) fun _ => ?_
  refine okay_ite (fun h => okay_fin ht ?_) fun hselect => ?_
  · refine seq_shift does_reconstruct.soft fun _ => does_pushNo_then ?_
    intro s hs
    refine ⟨(), _, rfl, good_same hs _ s.original s.queue s.switch s.finished s.quirks s.ignoreLf,
      ⟨⟨Ext.refl _, rfl, id, .inr (.inr ?_)⟩, rfl, rfl⟩⟩
    have : late (if tableMode s.mode then .inSelectInTable else .inSelect) := by split <;> decide
    exact ⟨late_plain this, fun _ => this⟩
  refine okay_ite (fun h => okay_mild ht ?_) fun _ => ?_
  · have hq : quiet n := oneOf_elim quiet (by decide +kernel) h
    mild
  refine okay_ite (fun h => okay_mild ht ?_) fun _ => ?_
  · have hq : quiet n := oneOf_elim quiet (by decide +kernel) h
    mild
  refine okay_ite (fun h => okay_mild ht ?_) fun _ => ?_
  · have hq : quiet n := oneOf_elim quiet (by decide +kernel) h
    mild
  refine okay_ite (fun h => startForeign_okay ht sc _ (by rw [is_iff.1 h]; decide) (by decide)) fun _ => ?_
  refine okay_ite (fun h => startForeign_okay ht sc _ (by rw [is_iff.1 h]; decide) (by decide)) fun _ => ?_
  refine okay_ite (fun _ => okay_ignore ht) fun _ => okay_mild ht ?_
  have hq : quiet n := quiet_rest hhead htable hselect hbody
  mild

/-- `</html>` is passed on to the mode after the body -/
def Passes (t : Token) (m : Mode) : Prop := ∀ n, t = .endTag n → is n "html" = true → 5 < rank m t

theorem inBodyEnd_okay (n : Str) : Okay (Passes (.endTag n)) (.endTag n) (inBodyEnd n) := by
  have ht : (.endTag n : Token) ≠ .eof := by intro h; cases h
  unfold inBodyEnd
  refine okay_ite (fun _ => endTemplate_okay ht) fun _ => ?_
  refine okay_ite (fun _ => okay_ifM (okay_fin ht (does_mono (does_setMode _) fun _ _ h => h.shift (by decide))) (okay_ignore ht)) fun _ => ?_
  refine okay_ite (fun h => okay_ifM (okay_reTo (does_setMode .afterBody) (by decide) ?_) (okay_ignore ht)) fun _ => ?_
  · intro m hm
    have h1 := hm n rfl h
    have h2 : rank .afterBody (.endTag n) = 5 := by
      show (if is n "html" = true then 5 else 11) = 5
      rw [if_pos h]
    omega
  refine okay_ite (fun _ => endBlock_okay ht n _ _ (does_pure ())) fun _ => ?_
  refine okay_ite (fun _ => endForm_okay ht n) fun _ => ?_
  refine okay_ite (fun h => okay_mild ht ?_) fun _ => ?_
  · have hq : quiet n := by rw [is_iff.1 h]; decide
    mild
  refine okay_ite (fun _ => endBlock_okay ht n _ _ (does_pure ())) fun _ => ?_
  refine okay_ite (fun _ => endBlock_okay ht n _ _ (does_pure ())) fun _ => ?_
  refine okay_ite (fun _ => okay_ifM (okay_mild ht (by mild)) (okay_ignore ht)) fun _ => ?_
  refine okay_ite (fun _ => okay_mild ht (does_otherEndTag n)) fun _ => ?_
  refine okay_ite (fun _ => okay_fin ht (does_adoption n).shift) fun _ => ?_
  refine okay_ite (fun _ => endBlock_okay ht n _ _ does_clearMarker) fun _ => ?_
  refine okay_ite (fun _ => okay_mild ht (by mild)) fun _ => ?_
  exact okay_mild ht (does_otherEndTag n)

theorem does_bodyText (v : Str) : Does Mild (do
    reconstruct
    insertText v
    if isBlank v then pure () else noFrameset) := by
  refine does_bind does_reconstruct fun _ => does_bind (docOnly_insertText v).does fun _ => ?_
  exact does_ite (fun _ => does_pure ()) fun _ => does_noFrameset

theorem inBody_okay (env : Env) (t : Token) : Okay (Passes t) t (inBody env t) := by
  cases t with
  | text v =>
    have ht : (.text v : Token) ≠ .eof := by intro h; cases h
    unfold inBody
    refine okay_ite (fun h => okay_splitNull h) fun _ => ?_
    exact okay_ite (fun _ => okay_ignore ht) fun _ => okay_mild ht (does_bodyText v)
  | comment v => exact okay_mild (by intro h; cases h) (docOnly_insertComment v).does
  | doctype a b c d => exact okay_ignore (by intro h; cases h)
  | startTag n sc as => exact inBodyStart_okay env n sc as
  | endTag n => exact inBodyEnd_okay n
  | eof => exact okay_ifM okay_stop eofTemplate_okay

end Verif.TreeBuild
