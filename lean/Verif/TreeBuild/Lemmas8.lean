import Verif.TreeBuild.Lemmas7

/-!
# The modes from the body on
-/
namespace Verif.TreeBuild
open Verif Verif.Dom

theorem okay_guard {P : Mode → Prop} {t : Token} {c : St → Bool} {a b : M Next}
    (ha : ∀ s, Good s → P s.mode → c s = true → ∃ r s', a s = some (r, s') ∧ Post t s r s') (hb : Okay P t b) :
    Okay P t (ifM c a b) := by
  intro s hs hp
  unfold ifM
  split
  · next h => exact ha s hs hp h
  · exact hb s hs hp

theorem does_fin_to {k : Mode} {m : M Unit} (h : Does (To k) m) (hk : late k) : Does Shift m := does_mono h fun _ _ h => h.shift hk

theorem okay_close {P : Mode → Prop} {t : Token} {k : String} (hk : k ∈ resetters) {c : St → Bool} (hc : ∀ s, c s = true → hasOpen k s = true)
    {b : M Next} (hb : Okay P t b) : Okay P t (ifM c (re (do popNamed k.toList; reset)) b) := by
  refine okay_guard ?_ hb
  intro s hs _ h
  obtain ⟨s', h1, h2, h3, h4⟩ := closeNamed_open hs hk (hc s h)
  exact post_re h1 h2 h3 (.inl h4)

theorem does_close {k : String} (hk : k ∈ resetters) : Does Shift ((do popNamed k.toList; reset) : M Unit) := fun _ hs =>
  let ⟨s', h1, h2, h3, _⟩ := closeNamed_ok hs hk
  ⟨(), s', h1, h2, h3⟩

theorem Passes.other {t : Token} (h : ∀ n, t ≠ .endTag n) (m : Mode) : Passes t m := fun n hn => absurd hn (h n)

theorem Passes.rank {t : Token} {m : Mode} (h : 5 < rank m t) : Passes t m := fun _ _ _ => h

/-! ## Templates -/

theorem templateTo_okay {t : Token} {k : Mode} (hk : late k) (hr : rank k t < 14) : Okay (· = .inTemplate) t (templateTo k) := by
  refine okay_re ?_
  intro s hs hp
  refine ⟨_, rfl, ?_, ⟨⟨Ext.refl _, rfl, id, .inr (.inr ⟨late_plain hk, fun _ => hk⟩)⟩, rfl, rfl⟩, .inr ⟨Nat.le_refl _, ?_⟩⟩
  · have h1 : Good { s with templateModes := k :: s.templateModes.tail } := good_modes hs fun m hm => by
      rcases List.mem_cons.1 hm with rfl | hm
      · exact hk
      · exact hs.ok.modes m (List.mem_of_mem_tail hm)
    exact good_same h1 k s.original s.queue s.switch s.finished s.quirks s.ignoreLf
  · rw [hp]
    show 2 * rank k t + image t < 2 * 14 + image t
    omega

theorem rank_lt {t : Token} : rank .inTable t < 14 ∧ rank .inColumnGroup t < 14 ∧ rank .inRow t < 14 ∧
    rank .inTable t ≤ 8 ∧ rank .inRow t ≤ 8 := by
  refine ⟨?_, ?_, ?_, ?_, ?_⟩ <;> (unfold rank; dsimp only; split <;> omega)

theorem inTemplate_okay (env : Env) (t : Token) : Okay (· = .inTemplate) t (inTemplate env t) := by
  have hb : Okay (· = .inTemplate) t (inBody env t) := okay_weaken (inBody_okay env t) fun m h => by
    subst h; exact Passes.rank (by show 5 < 14; decide)
  cases t with
  | startTag n sc as =>
    unfold inTemplate
    refine okay_ite (fun h => inHead_start env sc as h) fun _ => ?_
    refine okay_ite (fun _ => templateTo_okay (by decide) rank_lt.1) fun _ => ?_
    refine okay_ite (fun _ => templateTo_okay (by decide) rank_lt.2.1) fun _ => ?_
    refine okay_ite (fun _ => templateTo_okay (by decide) (show 7 < 14 by decide)) fun _ => ?_
    refine okay_ite (fun _ => templateTo_okay (by decide) rank_lt.2.2.1) fun _ => ?_
    exact templateTo_okay (by decide) (show 10 < 14 by decide)
  | endTag n =>
    unfold inTemplate
    exact okay_ite (fun h => inHead_end env h) fun _ => okay_ignore (by intro h; cases h)
  | eof => exact eofTemplate_okay
  | text v => exact hb
  | comment v => exact hb
  | doctype a b c d => exact hb

/-! ## Tables -/

theorem okay_fostered {P : Mode → Prop} {t : Token} {m : M Next} (h : Okay P t m) : Okay P t (fostered m) := by
  intro s hs hp
  have hg : ∀ {s : St} (b : Bool), Good s → Good { s with foster := b } := fun b h =>
    ⟨⟨h.ok.base, h.ok.active, h.ok.head, h.ok.form, h.ok.context, h.ok.modes⟩, h.bare⟩
  have hsoft : ∀ (s : St) (b : Bool), Soft s { s with foster := b } := fun s b => ⟨Ext.refl _, rfl, rfl, rfl, rfl, rfl, id⟩
  obtain ⟨r, s', h1, h2⟩ := h { s with foster := true } (hg true hs) hp
  refine ⟨r, { s' with foster := false }, ?_, turn_soft (soft_turn (hsoft s true) h2.toTurn) (hsoft s' false), hg false h2.good, ?_⟩
  · unfold fostered
    rw [bind_some (a := ()) (s' := { s with foster := true }) rfl, bind_some h1]; rfl
  · have := h2.out
    cases r <;> exact this

/-- how far a token must have been passed on for a table to deal with it -/
def Tab (t : Token) (m : Mode) : Prop := 5 < rank m t ∧ (startOf t ["td", "th", "tr"] = true → 7 < rank m t)

theorem does_tableForm (as : Attrs) {n : Str} (hn : n = "form".toList) :
    Does Mild (do let e ← insertHtml n as; setForm (some e); pop) := by
  have h := does_bind (does_openForm as hn fun _ => true) fun _ => does_pop
  rw [bind_assoc'] at h
  exact h

theorem inTable_okay (env : Env) (t : Token) : Okay (Tab t) t (inTable env t) := by
  have hb : Okay (Tab t) t (inBody env t) := okay_weaken (inBody_okay env t) fun m h => Passes.rank h.1
  cases t with
  | text v =>
    refine okay_ifM (okay_re ?_) (okay_fostered hb)
    intro s hs hp
    refine ⟨_, rfl, ?_, ⟨⟨Ext.refl _, rfl, id, .inr (.inl ⟨.inr rfl, rfl⟩)⟩, rfl, rfl⟩, .inr ⟨Nat.le_refl _, ?_⟩⟩
    · exact ⟨⟨hs.ok.base, hs.ok.active, hs.ok.head, hs.ok.form, hs.ok.context, hs.ok.modes⟩, hs.bare⟩
    · have := hp.1
      show 2 * 0 + _ < _
      omega
  | comment v => exact okay_mild (by intro h; cases h) (docOnly_insertComment v).does
  | doctype a b c d => exact okay_ignore (by intro h; cases h)
  | startTag n sc as =>
    have ht : (.startTag n sc as : Token) ≠ .eof := by intro h; cases h
    unfold inTable
    refine okay_ite (fun h => okay_fin ht (does_fin_to (k := .inCaption) ?_ (by decide))) fun _ => ?_
    · exact seq_to (does_clearTo _) fun _ => seq_to does_pushMarker fun _ => seq_to (does_insert_ as (by rw [is_iff.1 h]; decide)) fun _ =>
        does_setMode _
    refine okay_ite (fun h => okay_fin ht (does_fin_to (k := .inColumnGroup) ?_ (by decide))) fun _ => ?_
    · exact seq_to (does_clearTo _) fun _ => seq_to (does_insert_ as (by rw [is_iff.1 h]; decide)) fun _ => does_setMode _
    refine okay_ite (fun h => okay_reTo (k := .inColumnGroup) ?_ (by decide) ?_) fun _ => ?_
    · exact seq_to (does_clearTo _) fun _ => seq_to (does_insert_ [] (by decide)) fun _ => does_setMode _
    · intro m hm
      have h1 := hm.1
      have h2 : rank .inColumnGroup (.startTag n sc as) = 1 := by
        obtain rfl := is_iff.1 h
        rfl
      omega
    refine okay_ite (fun h => okay_fin ht (does_fin_to (k := .inTableBody) ?_ (by decide))) fun _ => ?_
    · exact seq_to (does_clearTo _) fun _ => seq_to (does_insert_ as (oneOf_elim quiet (by decide +kernel) h)) fun _ => does_setMode _
    refine okay_ite (fun h => okay_reTo (k := .inTableBody) ?_ (by decide) ?_) fun _ => ?_
    · exact seq_to (does_clearTo _) fun _ => seq_to (does_insert_ [] (by decide)) fun _ => does_setMode _
    · intro m hm
      exact hm.2 h
    refine okay_ite (fun _ => okay_close (by decide) (fun _ h => h) (okay_ignore ht)) fun _ => ?_
    refine okay_ite (fun h => inHead_start env sc as ?_) fun _ => ?_
    · exact oneOf_elim (fun n => oneOf n headNames = true) (by decide +kernel) h
    refine okay_ite (fun _ => okay_ite (fun _ => okay_fostered hb) fun _ => okay_mild ht (does_insertVoid _ _)) fun _ => ?_
    refine okay_ite (fun h => okay_ifM (okay_ignore ht) (okay_mild ht (does_tableForm as (is_iff.1 h)))) fun _ => okay_fostered hb
  | endTag n =>
    have ht : (.endTag n : Token) ≠ .eof := by intro h; cases h
    unfold inTable
    refine okay_ite (fun _ => okay_ifM (okay_fin ht (does_close (by decide))) (okay_ignore ht)) fun _ => ?_
    refine okay_ite (fun _ => okay_ignore ht) fun _ => ?_
    exact okay_ite (fun h => inHead_end env h) fun _ => okay_fostered hb
  | eof => exact hb

theorem closeCaption_okay {P : Mode → Prop} {t : Token} (ht : t ≠ .eof) (again : Bool) (hr : ∀ m, P m → rank .inTable t < rank m t) :
    Okay P t (closeCaption again) := by
  refine okay_ifM ?_ (okay_ignore ht)
  have hd : Does (To .inTable) ((do
      implied none false
      popNamed "caption".toList
      clearMarker
      setMode .inTable) : M Unit) :=
    seq_to (does_implied _ _) fun _ => seq_to (does_popNamed _) fun _ => seq_to does_clearMarker fun _ => does_setMode _
  cases again with
  | false => exact okay_fin ht (does_fin_to hd (by decide))
  | true => exact okay_reTo hd (by decide) hr

theorem inCaption_okay (env : Env) (t : Token) : Okay (· = .inCaption) t (inCaption env t) := by
  have hb : Okay (· = .inCaption) t (inBody env t) := okay_weaken (inBody_okay env t) fun m h => by
    subst h; exact Passes.rank (by show 5 < 10; decide)
  have hr : ∀ m, m = .inCaption → rank .inTable t < rank m t := by
    rintro m rfl
    show _ < 10
    have := (rank_lt (t := t)).2.2.2.1
    omega
  cases t with
  | endTag n =>
    have ht : (.endTag n : Token) ≠ .eof := by intro h; cases h
    unfold inCaption
    refine okay_ite (fun _ => closeCaption_okay ht false hr) fun _ => ?_
    refine okay_ite (fun _ => closeCaption_okay ht true hr) fun _ => ?_
    exact okay_ite (fun _ => okay_ignore ht) fun _ => hb
  | startTag n sc as =>
    unfold inCaption
    exact okay_ite (fun _ => closeCaption_okay (by intro h; cases h) true hr) fun _ => hb
  | text v => exact hb
  | comment v => exact hb
  | doctype a b c d => exact hb
  | eof => exact hb

theorem closeColgroup_okay {t : Token} (ht : t ≠ .eof) (hc : startOf t ["col"] = false) : Okay (· = .inColumnGroup) t closeColgroup := by
  refine okay_ifM (okay_reTo (k := .inTable) (seq_to does_pop fun _ => does_setMode _) (by decide) ?_) (okay_ignore ht)
  rintro m rfl
  have h1 := (rank_lt (t := t)).2.2.2.1
  have h2 : rank .inColumnGroup t = 9 := by unfold rank; dsimp only; rw [hc]; rfl
  omega

theorem inColumnGroup_okay (env : Env) (t : Token) : Okay (· = .inColumnGroup) t (inColumnGroup env t) := by
  cases t with
  | text v =>
    unfold inColumnGroup
    refine okay_ite (fun h => okay_splitMixed h) fun _ => ?_
    exact okay_ite (fun _ => okay_mild (by intro h; cases h) (docOnly_insertText v).does) fun _ => closeColgroup_okay (by intro h; cases h) rfl
  | comment v => exact okay_mild (by intro h; cases h) (docOnly_insertComment v).does
  | doctype a b c d => exact okay_ignore (by intro h; cases h)
  | startTag n sc as =>
    have ht : (.startTag n sc as : Token) ≠ .eof := by intro h; cases h
    unfold inColumnGroup
    refine okay_ite (fun _ => startHtml_okay ht as) fun _ => ?_
    refine okay_ite (fun _ => okay_mild ht (does_insertVoid _ _)) fun h => ?_
    refine okay_ite (fun h => inHead_start env sc as (by rw [is_iff.1 h]; decide)) fun _ => ?_
    refine closeColgroup_okay ht ?_
    show oneOf n ["col"] = false
    unfold oneOf
    rw [List.any_cons, Bool.eq_false_iff.2 h]; rfl
  | endTag n =>
    have ht : (.endTag n : Token) ≠ .eof := by intro h; cases h
    unfold inColumnGroup
    refine okay_ite (fun h => inHead_end env h) fun _ => ?_
    refine okay_ite (fun _ => closeColgroup_okay ht rfl) fun _ => ?_
    exact okay_ite (fun _ => okay_ignore ht) fun _ => closeColgroup_okay ht rfl
  | eof => exact okay_weaken (inBody_okay env .eof) fun m _ => Passes.other (by intro n h; cases h) m

theorem does_closeSection : Does (To .inTable) closeSection := seq_to (does_clearTo _) fun _ => seq_to does_pop fun _ => does_setMode _
theorem does_closeRow : Does (To .inTableBody) closeRow := seq_to (does_clearTo _) fun _ => seq_to does_pop fun _ => does_setMode _
theorem does_closeCell : Does (To .inRow) closeCell :=
  seq_to (does_implied _ _) fun _ => seq_to (does_popAny _) fun _ => seq_to does_clearMarker fun _ => does_setMode _

theorem inTableBody_okay (env : Env) (t : Token) : Okay (· = .inTableBody) t (inTableBody env t) := by
  have hb : startOf t ["td", "th", "tr"] = false → Okay (· = .inTableBody) t (inTable env t) := fun h =>
    okay_weaken (inTable_okay env t) fun m hm => by
      subst hm
      exact ⟨by show 5 < 7; decide, fun h' => by rw [h] at h'; cases h'⟩
  cases t with
  | startTag n sc as =>
    have ht : (.startTag n sc as : Token) ≠ .eof := by intro h; cases h
    unfold inTableBody
    refine okay_ite (fun h => okay_fin ht (does_fin_to (k := .inRow) ?_ (by decide))) fun h1 => ?_
    · exact seq_to (does_clearTo _) fun _ => seq_to (does_insert_ as (by rw [is_iff.1 h]; decide)) fun _ => does_setMode _
    refine okay_ite (fun h => okay_reTo (k := .inRow) ?_ (by decide) ?_) fun h2 => ?_
    · exact seq_to (does_clearTo _) fun _ => seq_to (does_insert_ [] (by decide)) fun _ => does_setMode _
    · rintro m rfl
      have h3 : startOf (.startTag n sc as) ["td", "th"] = true := oneOf_elim (fun n => oneOf n ["td", "th"] = true) (by decide) h
      have h4 : rank .inRow (.startTag n sc as) = 6 := by unfold rank; dsimp only; rw [h3]; rfl
      rw [h4]; show 6 < 7; decide
    have h0 : startOf (.startTag n sc as) ["td", "th", "tr"] = false := by
      refine Bool.eq_false_iff.2 fun h => ?_
      obtain ⟨k, hk, rfl⟩ := oneOf_iff.1 h
      simp only [List.mem_cons, List.not_mem_nil, or_false] at hk
      rcases hk with rfl | rfl | rfl
      · exact h2 (by decide)
      · exact h2 (by decide)
      · exact h1 (by decide)
    refine okay_ite (fun h => okay_ifM (okay_reTo does_closeSection (by decide) ?_) (okay_ignore ht)) fun _ => hb h0
    rintro m rfl
    have h4 : rank .inTable (.startTag n sc as) = 6 := by unfold rank; dsimp only; rw [h0]; rfl
    rw [h4]; show 6 < 7; decide
  | endTag n =>
    have ht : (.endTag n : Token) ≠ .eof := by intro h; cases h
    unfold inTableBody
    refine okay_ite (fun _ => okay_ifM (okay_fin ht (does_fin_to does_closeSection (by decide))) (okay_ignore ht)) fun _ => ?_
    refine okay_ite (fun _ => okay_ifM (okay_reTo does_closeSection (by decide) ?_) (okay_ignore ht)) fun _ => ?_
    · rintro m rfl; show 6 < 7; decide
    exact okay_ite (fun _ => okay_ignore ht) fun _ => hb rfl
  | text v => exact hb rfl
  | comment v => exact hb rfl
  | doctype a b c d => exact hb rfl
  | eof => exact hb rfl

theorem inRow_okay (env : Env) (t : Token) : Okay (· = .inRow) t (inRow env t) := by
  have h8 : startOf t ["td", "th"] = false → rank .inRow t = 8 := fun h => by unfold rank; dsimp only; rw [h]; rfl
  have hb : startOf t ["td", "th"] = false → Okay (· = .inRow) t (inTable env t) := fun h =>
    okay_weaken (inTable_okay env t) fun m hm => by
      subst hm
      exact ⟨by rw [h8 h]; decide, fun _ => by rw [h8 h]; decide⟩
  have hr : startOf t ["td", "th"] = false → ∀ m, m = .inRow → rank .inTableBody t < rank m t := by
    rintro h m rfl
    rw [h8 h]; show 7 < 8; decide
  cases t with
  | startTag n sc as =>
    have ht : (.startTag n sc as : Token) ≠ .eof := by intro h; cases h
    unfold inRow
    refine okay_ite (fun h => okay_fin ht (does_fin_to (k := .inCell) ?_ (by decide))) fun h1 => ?_
    · exact seq_to (does_clearTo _) fun _ => seq_to (does_insert_ as (oneOf_elim quiet (by decide) h)) fun _ =>
        seq_to_mild (does_setMode _) fun _ => does_pushMarker
    have h0 : startOf (.startTag n sc as) ["td", "th"] = false := by
      refine Bool.eq_false_iff.2 fun h => ?_
      exact h1 (oneOf_elim (fun n => oneOf n ["th", "td"] = true) (by decide) h)
    exact okay_ite (fun h => okay_ifM (okay_reTo does_closeRow (by decide) (hr h0)) (okay_ignore ht)) fun _ => hb h0
  | endTag n =>
    have ht : (.endTag n : Token) ≠ .eof := by intro h; cases h
    unfold inRow
    refine okay_ite (fun _ => okay_ifM (okay_fin ht (does_fin_to does_closeRow (by decide))) (okay_ignore ht)) fun _ => ?_
    refine okay_ite (fun _ => okay_ifM (okay_reTo does_closeRow (by decide) (hr rfl)) (okay_ignore ht)) fun _ => ?_
    refine okay_ite (fun _ => okay_ifM (okay_reTo does_closeRow (by decide) (hr rfl)) (okay_ignore ht)) fun _ => ?_
    exact okay_ite (fun _ => okay_ignore ht) fun _ => hb rfl
  | text v => exact hb rfl
  | comment v => exact hb rfl
  | doctype a b c d => exact hb rfl
  | eof => exact hb rfl

theorem inCell_okay (env : Env) (t : Token) : Okay (· = .inCell) t (inCell env t) := by
  have hb : Okay (· = .inCell) t (inBody env t) := okay_weaken (inBody_okay env t) fun m h => by
    subst h; exact Passes.rank (by show 5 < 9; decide)
  have hr : ∀ m, m = .inCell → rank .inRow t < rank m t := by
    rintro m rfl
    show _ < 9
    have := (rank_lt (t := t)).2.2.2.2
    omega
  cases t with
  | endTag n =>
    have ht : (.endTag n : Token) ≠ .eof := by intro h; cases h
    unfold inCell
    refine okay_ite (fun _ => okay_ifM (okay_fin ht (does_fin_to (k := .inRow) ?_ (by decide))) (okay_ignore ht)) fun _ => ?_
    · exact seq_to (does_implied _ _) fun _ => seq_to (does_popNamed _) fun _ => seq_to does_clearMarker fun _ => does_setMode _
    refine okay_ite (fun _ => okay_ignore ht) fun _ => ?_
    exact okay_ite (fun _ => okay_ifM (okay_reTo does_closeCell (by decide) hr) (okay_ignore ht)) fun _ => hb
  | startTag n sc as =>
    unfold inCell
    exact okay_ite (fun _ => okay_ifM (okay_reTo does_closeCell (by decide) hr) (okay_ignore (by intro h; cases h))) fun _ => hb
  | text v => exact hb
  | comment v => exact hb
  | doctype a b c d => exact hb
  | eof => exact hb

/-! ## Selection lists -/

theorem does_popOption : Does Mild popOption := does_whenM does_pop
theorem does_popOptgroup : Does Mild popOptgroup := does_whenM does_pop

theorem inSelect_okay {P : Mode → Prop} (env : Env) (t : Token) : Okay P t (inSelect env t) := by
  cases t with
  | text v =>
    have ht : (.text v : Token) ≠ .eof := by intro h; cases h
    unfold inSelect
    refine okay_ite (fun h => okay_splitMixed h) fun _ => ?_
    exact okay_ite (fun _ => okay_ignore ht) fun _ => okay_mild ht (docOnly_insertText v).does
  | comment v => exact okay_mild (by intro h; cases h) (docOnly_insertComment v).does
  | doctype a b c d => exact okay_ignore (by intro h; cases h)
  | startTag n sc as =>
    have ht : (.startTag n sc as : Token) ≠ .eof := by intro h; cases h
    unfold inSelect
    refine okay_ite (fun _ => startHtml_okay ht as) fun _ => ?_
    refine okay_ite (fun h => okay_mild ht ?_) fun _ => ?_
    · exact does_bind does_popOption fun _ => does_insert_ as (by rw [is_iff.1 h]; decide)
    refine okay_ite (fun h => okay_mild ht ?_) fun _ => ?_
    · exact does_bind does_popOption fun _ => does_bind does_popOptgroup fun _ => does_insert_ as (by rw [is_iff.1 h]; decide)
    refine okay_ite (fun h => okay_mild ht ?_) fun _ => ?_
    · exact does_bind does_popOption fun _ => does_bind does_popOptgroup fun _ => does_insertVoid _ _
    refine okay_ite (fun _ => okay_ifM (okay_fin ht (does_close (by decide))) (okay_ignore ht)) fun _ => ?_
    refine okay_ite (fun _ => okay_close (by decide) (fun _ h => open_of_scope h) (okay_ignore ht)) fun _ => ?_
    refine okay_ite (fun h => inHead_start env sc as ?_) fun _ => okay_ignore ht
    exact oneOf_elim (fun n => oneOf n headNames = true) (by decide +kernel) h
  | endTag n =>
    have ht : (.endTag n : Token) ≠ .eof := by intro h; cases h
    unfold inSelect
    refine okay_ite (fun _ => okay_mild ht ?_) fun _ => ?_
    · exact does_bind (does_whenM does_pop) fun _ => does_popOptgroup
    refine okay_ite (fun _ => okay_mild ht does_popOption) fun _ => ?_
    refine okay_ite (fun _ => okay_ifM (okay_fin ht (does_close (by decide))) (okay_ignore ht)) fun _ => ?_
    exact okay_ite (fun h => inHead_end env h) fun _ => okay_ignore ht
  | eof => exact okay_weaken (inBody_okay env .eof) fun m _ => Passes.other (by intro n h; cases h) m

theorem breakSelect_okay (t : Token) : Okay (· = .inSelectInTable) t (re closeSelect) := by
  intro s hs hp
  obtain ⟨s', h1, h2, h3, h4, h5⟩ := closeNamed_ok hs (k := "select") (by decide)
  refine post_re h1 h2 h3 ?_
  rcases h5 with ⟨_, h6, _⟩ | h5
  · refine .inr ⟨h4, ?_⟩
    rw [h6, hp]
    show 2 * 10 + _ < 2 * 12 + _
    omega
  · exact .inl h5

theorem inSelectInTable_okay (env : Env) (t : Token) : Okay (· = .inSelectInTable) t (inSelectInTable env t) := by
  cases t with
  | startTag n sc as =>
    unfold inSelectInTable
    exact okay_ite (fun _ => breakSelect_okay _) fun _ => inSelect_okay env _
  | endTag n =>
    unfold inSelectInTable
    exact okay_ite (fun _ => okay_ifM (breakSelect_okay _) (okay_ignore (by intro h; cases h))) fun _ => inSelect_okay env _
  | text v => exact inSelect_okay env _
  | comment v => exact inSelect_okay env _
  | doctype a b c d => exact inSelect_okay env _
  | eof => exact inSelect_okay env _

/-! ## After the body, and frame sets -/

theorem afterBody_okay (env : Env) (t : Token) : Okay (· = .afterBody) t (afterBody env t) := by
  have other : (∀ n, t = .endTag n → is n "html" = false) → Okay (· = .afterBody) t (re (setMode .inBody)) := by
    intro h
    refine okay_reTo (does_setMode .inBody) (by decide) ?_
    rintro m rfl
    have : rank .afterBody t = 11 := by
      cases t with
      | endTag n => show (if is n "html" = true then 5 else 11) = 11; rw [h n rfl]; rfl
      | _ => rfl
    rw [this]; show 10 < 11; decide
  cases t with
  | text v =>
    unfold afterBody
    refine okay_ite (fun h => okay_splitMixed h) fun _ => ?_
    refine okay_ite (fun _ => ?_) fun _ => other (by intro n h; cases h)
    exact okay_weaken (inBody_okay env _) fun m _ => Passes.other (by intro n h; cases h) m
  | comment v => exact okay_mild (by intro h; cases h) (docOnly_commentFirst v).does
  | doctype a b c d => exact okay_ignore (by intro h; cases h)
  | startTag n sc as =>
    unfold afterBody
    exact okay_ite (fun _ => startHtml_okay (by intro h; cases h) as) fun _ => other (by intro n h; cases h)
  | endTag n =>
    have ht : (.endTag n : Token) ≠ .eof := by intro h; cases h
    unfold afterBody
    refine okay_ite (fun _ => okay_ifM (okay_ignore ht) (okay_fin ht (does_fin_to (does_setMode .afterAfterBody) (by decide)))) fun h => ?_
    refine other ?_
    intro k hk
    cases hk
    exact Bool.eq_false_iff.2 h
  | eof => exact okay_stop

theorem afterAfterBody_okay (env : Env) (t : Token) : Okay (· = .afterAfterBody) t (afterAfterBody env t) := by
  have other : Okay (· = .afterAfterBody) t (re (setMode .inBody)) := by
    refine okay_reTo (does_setMode .inBody) (by decide) ?_
    rintro m rfl
    show 10 < 13; decide
  cases t with
  | text v =>
    unfold afterAfterBody
    refine okay_ite (fun h => okay_splitMixed h) fun _ => ?_
    refine okay_ite (fun _ => ?_) fun _ => other
    exact okay_weaken (inBody_okay env _) fun m _ => Passes.other (by intro n h; cases h) m
  | comment v => exact okay_mild (by intro h; cases h) (docOnly_commentRoot v).does
  | doctype a b c d => exact okay_ignore (by intro h; cases h)
  | startTag n sc as =>
    unfold afterAfterBody
    exact okay_ite (fun _ => startHtml_okay (by intro h; cases h) as) fun _ => other
  | endTag n => exact other
  | eof => exact okay_stop

theorem does_endFrameset : Does Shift ((do
    pop
    whenM (fun s => s.context.isNone && !is (curTag s) "frameset") (setMode .afterFrameset)) : M Unit) := by
  refine seq_shift does_pop.soft fun _ => ?_
  exact does_ifM (does_fin_to (does_setMode .afterFrameset) (by decide)) (Does.shift (does_pure ()))

theorem inFrameset_okay {P : Mode → Prop} (env : Env) (t : Token) : Okay P t (inFrameset env t) := by
  cases t with
  | text v =>
    unfold inFrameset
    refine okay_ite (fun h => okay_splitMixed h) fun _ => ?_
    exact okay_ite (fun _ => okay_mild (by intro h; cases h) (docOnly_insertText v).does) fun _ => okay_ignore (by intro h; cases h)
  | comment v => exact okay_mild (by intro h; cases h) (docOnly_insertComment v).does
  | doctype a b c d => exact okay_ignore (by intro h; cases h)
  | startTag n sc as =>
    have ht : (.startTag n sc as : Token) ≠ .eof := by intro h; cases h
    unfold inFrameset
    refine okay_ite (fun _ => startHtml_okay ht as) fun _ => ?_
    refine okay_ite (fun h => okay_mild ht (does_insert_ as (by rw [is_iff.1 h]; decide))) fun _ => ?_
    refine okay_ite (fun h => okay_mild ht (does_insertVoid _ _)) fun _ => ?_
    exact okay_ite (fun h => inHead_start env sc as (by rw [is_iff.1 h]; decide)) fun _ => okay_ignore ht
  | endTag n =>
    have ht : (.endTag n : Token) ≠ .eof := by intro h; cases h
    unfold inFrameset
    exact okay_ite (fun _ => okay_ifM (okay_ignore ht) (okay_fin ht does_endFrameset)) fun _ => okay_ignore ht
  | eof => exact okay_stop

theorem afterFrameset_okay {P : Mode → Prop} (env : Env) (t : Token) : Okay P t (afterFrameset env t) := by
  cases t with
  | text v =>
    unfold afterFrameset
    refine okay_ite (fun h => okay_splitMixed h) fun _ => ?_
    exact okay_ite (fun _ => okay_mild (by intro h; cases h) (docOnly_insertText v).does) fun _ => okay_ignore (by intro h; cases h)
  | comment v => exact okay_mild (by intro h; cases h) (docOnly_insertComment v).does
  | doctype a b c d => exact okay_ignore (by intro h; cases h)
  | startTag n sc as =>
    have ht : (.startTag n sc as : Token) ≠ .eof := by intro h; cases h
    unfold afterFrameset
    refine okay_ite (fun _ => startHtml_okay ht as) fun _ => ?_
    exact okay_ite (fun h => inHead_start env sc as (by rw [is_iff.1 h]; decide)) fun _ => okay_ignore ht
  | endTag n =>
    have ht : (.endTag n : Token) ≠ .eof := by intro h; cases h
    unfold afterFrameset
    exact okay_ite (fun _ => okay_fin ht (does_fin_to (does_setMode _) (by decide))) fun _ => okay_ignore ht
  | eof => exact okay_stop

theorem afterAfterFrameset_okay {P : Mode → Prop} (env : Env) (t : Token) : Okay P t (afterAfterFrameset env t) := by
  cases t with
  | text v =>
    unfold afterAfterFrameset
    refine okay_ite (fun h => okay_splitMixed h) fun _ => ?_
    refine okay_ite (fun _ => ?_) fun _ => okay_ignore (by intro h; cases h)
    exact okay_weaken (inBody_okay env _) fun m _ => Passes.other (by intro n h; cases h) m
  | comment v => exact okay_mild (by intro h; cases h) (docOnly_commentRoot v).does
  | doctype a b c d => exact okay_ignore (by intro h; cases h)
  | startTag n sc as =>
    have ht : (.startTag n sc as : Token) ≠ .eof := by intro h; cases h
    unfold afterAfterFrameset
    refine okay_ite (fun _ => startHtml_okay ht as) fun _ => ?_
    exact okay_ite (fun h => inHead_start env sc as (by rw [is_iff.1 h]; decide)) fun _ => okay_ignore ht
  | endTag n => exact okay_ignore (by intro h; cases h)
  | eof => exact okay_stop

/-- all of the modes from the body on -/
theorem late_okay (env : Env) {m : Mode} (hm : late m) (t : Token) : Okay (· = m) t (byMode env m t) := by
  obtain ⟨h1, h2, h3, h4, h5, h6, h7, h8⟩ := hm
  cases m with
  | initial => exact absurd rfl h1
  | beforeHtml => exact absurd rfl h2
  | beforeHead => exact absurd rfl h3
  | inHead => exact absurd rfl h4
  | inHeadNoscript => exact absurd rfl h5
  | afterHead => exact absurd rfl h6
  | text => exact absurd rfl h7
  | inTableText => exact absurd rfl h8
  | inBody => exact okay_weaken (inBody_okay env t) fun m h => by subst h; exact Passes.rank (by show 5 < 10; decide)
  | inTable =>
    refine okay_weaken (inTable_okay env t) fun m h => ?_
    subst h
    unfold Tab rank
    dsimp only
    split
    · exact ⟨by decide, fun _ => by decide⟩
    · next h => exact ⟨by decide, fun h' => absurd h' h⟩
  | inCaption => exact inCaption_okay env t
  | inColumnGroup => exact inColumnGroup_okay env t
  | inTableBody => exact inTableBody_okay env t
  | inRow => exact inRow_okay env t
  | inCell => exact inCell_okay env t
  | inSelect => exact inSelect_okay env t
  | inSelectInTable => exact inSelectInTable_okay env t
  | inTemplate => exact inTemplate_okay env t
  | afterBody => exact afterBody_okay env t
  | inFrameset => exact inFrameset_okay env t
  | afterFrameset => exact afterFrameset_okay env t
  | afterAfterBody => exact afterAfterBody_okay env t
  | afterAfterFrameset => exact afterAfterFrameset_okay env t

end Verif.TreeBuild
