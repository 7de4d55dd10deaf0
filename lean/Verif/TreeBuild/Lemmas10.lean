import Verif.TreeBuild.Lemmas9

/-!
# One token: all modes, and foreign content
-/
namespace Verif.TreeBuild
open Verif Verif.Dom

/-! ## After the head -/

theorem low_between {t t' : Token} {s s1 s2 s3 : St} (h1 : Mild s s1) (h : Low s1 t s2 t') (h2 : Mild s2 s3) : Low s t s3 t' := by
  have e1 := h1.depth
  have e2 := h2.depth
  rcases h with h | ⟨h, h'⟩
  · exact .inl (by omega)
  · refine .inr ⟨by omega, ?_⟩
    rw [h2.mode, ← h1.mode]; exact h'

theorem out_between {t : Token} {s s1 s2 s3 : St} {r : Next} (h1 : Mild s s1) (h : Out t s1 r s2) (h2 : Mild s2 s3) : Out t s r s3 := by
  cases r with
  | done =>
    obtain ⟨e1, e2⟩ := h
    refine ⟨by rw [h2.queue, ← h1.queue]; exact e1, ?_⟩
    rw [h2.finished, ← h1.finished]; exact e2
  | again =>
    obtain ⟨e1, e2, e3⟩ := h
    exact ⟨h2.queue.trans (e1.trans h1.queue), h2.finished.trans (e2.trans h1.finished), low_between h1 e3 h2⟩
  | other t' =>
    obtain ⟨e1, e2, e3, e4⟩ := h
    exact ⟨h2.queue.trans (e1.trans h1.queue), h2.finished.trans (e2.trans h1.finished), low_between h1 e3 h2, e4⟩

theorem EarlyAt.without {d : Doc} {m : Mode} {l : List Nat} (h : EarlyAt d m l) (hm : need m = 1) {x : Nat} (hx : is (tag d x) "html" = false) :
    EarlyAt d m (l.filter fun i => decide (i ≠ x)) := by
  have hne := h.ne (by omega)
  obtain ⟨i, b, rfl⟩ : ∃ i b, l = i ++ [b] := ⟨l.dropLast, l.getLast hne, (List.dropLast_concat_getLast hne).symm⟩
  have hb : is (tag d b) "html" = true := h.last b (by simp)
  have hbx : b ≠ x := by rintro rfl; rw [hx] at hb; cases hb
  have he : (i ++ [b]).filter (fun i => decide (i ≠ x)) = i.filter (fun i => decide (i ≠ x)) ++ [b] := by
    rw [List.filter_append]; simp [hbx]
  refine ⟨fun y hy => h.html y (List.mem_filter.1 hy).1, ?_, ?_⟩
  · rw [he, hm]; simp
  · intro y hy
    rw [he] at hy
    simp only [List.getLast?_append_cons, List.getLast?_singleton, Option.some.injEq] at hy
    rw [← hy]; exact hb

theorem headAgain_okay (env : Env) {n : Str} (sc : Bool) (as : Attrs) (hn : oneOf n headNames = true) :
    EOkay .afterHead (.startTag n sc as) (headAgain env (.startTag n sc as)) := by
  intro s hs hm
  unfold headAgain
  cases hh : s.head with
  | none => exact eokay_fam (by decide) (fokay_head env sc as hn) s hs hm
  | some h =>
    obtain ⟨hlive, htag⟩ := hs.good.ok.head h hh
    have hres : oneOf (tag s.doc h) resetters = false := by rw [htag]; decide
    have hg1 : Good { s with opened := h :: s.opened } :=
      good_push hs.good hs.good.ok.base.fine (Ext.refl s.doc) hlive (by rw [htag]; decide) (fun _ => hres)
    have hm1 : Mild s { s with opened := h :: s.opened } :=
      ⟨soft_push s (Ext.refl s.doc), Nat.le_of_eq (depth_push hs.good.ok.base (Ext.refl s.doc) hres)⟩
    obtain ⟨r, s2, e1, e2, e3⟩ := fokay_head env sc as hn _ hg1
    have htag2 : tag s2.doc h = "head".toList := (e2.ext h hlive).2.1.trans htag
    obtain ⟨s3, e4, hg3, hm3⟩ := removeOpen_ok e2.good (n := h) (anchor_tag (by rw [htag2]; decide))
    have hs3 : s3 = { s2 with opened := s2.opened.filter fun i => decide (i ≠ h) } := by
      unfold removeOpen at e4; cases e4; rfl
    have hext : Ext s.doc s3.doc := e2.ext.trans hm3.ext
    have hfs : s3.framesetOk = true → s.framesetOk = true := fun h => e2.frameset (hm3.frameset h)
    have hctx : s3.context = s.context := hm3.context.trans e2.context
    refine ⟨r, s3, ?_, ⟨hg3, ?_, ?_⟩, hext, hctx, hfs, out_between hm1 e2.out hm3, fun _ hl => absurd hl (early_late hm (by decide))⟩
    · dsimp only
      rw [show ∀ (k : Unit → M Next), ((push h) >>= k) s = k () { s with opened := h :: s.opened } from fun _ => rfl]
      rw [bind_some e1, bind_some e4]; rfl
    · unfold Held
      rw [hm3.mode, hm3.original]
      rcases e3 with ⟨f1, _⟩ | ⟨f1, f2, _⟩ | ⟨f1, _⟩
      · exact .inl (by rw [f1]; show plain s.mode; rw [hm]; decide)
      · exact .inr ⟨.inl f1, by rw [f2]; show plain s.mode; rw [hm]; decide⟩
      · exact .inl f1
    · intro hf
      have hE := inv_early hs hm (by decide) (hfs hf)
      have hA : EarlyAt s3.doc .afterHead s.opened := by
        have := (hE.plain (by rw [hm]; decide)).2.ext hs.good.ok.base.opened hext
        rw [hm] at this; exact this
      have hW := hA.without rfl (x := h) (by rw [(hext h hlive).2.1, htag]; decide)
      have hc := context_ext hs.good hext hctx hE.context
      rcases e3 with ⟨f1, f2, f3⟩ | ⟨f1, f2, x, f3, f4, f5⟩ | ⟨_, f1⟩
      · refine .inr ⟨hc, .inl ?_⟩
        have hmode : s3.mode = .afterHead := hm3.mode.trans (f1.trans hm)
        rw [hmode]
        refine ⟨by decide, ?_⟩
        have : s3.opened = s.opened.filter fun i => decide (i ≠ h) := by
          rw [hs3]
          show s2.opened.filter _ = _
          rw [f3]; simp
        rw [this]; exact hW
      · refine .inr ⟨hc, .inr ?_⟩
        have hmode : s3.mode = .text := hm3.mode.trans f1
        have horig : s3.original = .afterHead := hm3.original.trans (f2.trans hm)
        have hxh : x ≠ h := by
          rintro rfl
          rw [htag2] at f5
          exact absurd f5 (by decide)
        refine ⟨hmode, by rw [horig]; decide, x, s.opened.filter fun i => decide (i ≠ h), ?_, ?_, by rw [horig]; exact hW⟩
        · rw [hs3]
          show s2.opened.filter _ = _
          rw [f3]; simp [hxh]
        · rw [hs3]; exact f4
      · exact .inl (.inl (by rw [hm3.mode]; exact f1 (hm3.frameset hf)))

theorem afterHead_okay (env : Env) (t : Token) : EOkay .afterHead t (afterHead env t) := by
  have other : EOkay .afterHead t (re (do insert_ "body".toList []; setMode .inBody)) :=
    eokay_re (by decide) (by decide) move_body (show 10 < 15 by decide)
  cases t with
  | text v =>
    unfold afterHead
    refine eokay_ite (fun h => eokay_fam (by decide) (fokay_split h)) fun _ => ?_
    exact eokay_ite (fun _ => eokay_fam (by decide) (fokay_doc (by intro h; cases h) (docOnly_insertText v))) fun _ => other
  | comment v => exact eokay_fam (by decide) (fokay_doc (by intro h; cases h) (docOnly_insertComment v))
  | doctype n q p y => exact eokay_fam (by decide) (fokay_ignore (by intro h; cases h))
  | startTag n sc as =>
    have ht : (.startTag n sc as : Token) ≠ .eof := by intro h; cases h
    unfold afterHead
    refine eokay_ite (fun _ => eokay_fam (by decide) (fokay_startHtml ht as)) fun _ => ?_
    refine eokay_ite (fun h => eokay_fin ht (by decide) (by decide) (move_bodyTag as h)) fun _ => ?_
    refine eokay_ite (fun h => eokay_fin ht (by decide) (show plain .inFrameset by decide) (move_to (by decide) ?_)) fun _ => ?_
    · exact seq_to (does_insert_ as (by rw [is_iff.1 h]; decide)) fun _ => does_setMode _
    refine eokay_ite (fun h => headAgain_okay env sc as h) fun _ => ?_
    exact eokay_ite (fun _ => eokay_fam (by decide) (fokay_ignore ht)) fun _ => other
  | endTag n =>
    have ht : (.endTag n : Token) ≠ .eof := by intro h; cases h
    unfold afterHead
    refine eokay_ite (fun h => ?_) fun _ => ?_
    · obtain rfl := is_iff.1 h
      exact eokay_fam (by decide) (fokay_endTemplate ht)
    exact eokay_ite (fun _ => other) fun _ => eokay_fam (by decide) (fokay_ignore ht)
  | eof => exact other

/-! ## Text -/

theorem rank_plain {m : Mode} (h : plain m) (t : Token) : rank m t ≤ 20 := by
  cases m with
  | text => exact absurd rfl h.1
  | inTableText => exact absurd rfl h.2
  | afterBody =>
    cases t with
    | endTag n => show (if is n "html" = true then 5 else 11) ≤ 20; split <;> decide
    | _ => show 11 ≤ 20; decide
  | inRow => unfold rank; dsimp only; split <;> decide
  | inTable => unfold rank; dsimp only; split <;> decide
  | inColumnGroup => unfold rank; dsimp only; split <;> decide
  | initial => show 20 ≤ 20; decide
  | beforeHtml => show 19 ≤ 20; decide
  | beforeHead => show 18 ≤ 20; decide
  | inHeadNoscript => show 17 ≤ 20; decide
  | inHead => show 16 ≤ 20; decide
  | afterHead => show 15 ≤ 20; decide
  | inTemplate => show 14 ≤ 20; decide
  | afterAfterBody => show 13 ≤ 20; decide
  | inSelectInTable => show 12 ≤ 20; decide
  | inBody => show 10 ≤ 20; decide
  | inCaption => show 10 ≤ 20; decide
  | inCell => show 9 ≤ 20; decide
  | inTableBody => show 7 ≤ 20; decide
  | inSelect => show 3 ≤ 20; decide
  | inFrameset => show 3 ≤ 20; decide
  | afterFrameset => show 3 ≤ 20; decide
  | afterAfterFrameset => show 3 ≤ 20; decide

theorem text_original {s : St} (h : Inv s) (hm : s.mode = .text ∨ s.mode = .inTableText) : plain s.original := by
  rcases h.held with h' | h'
  · rcases hm with hm | hm
    · exact absurd hm h'.1
    · exact absurd hm h'.2
  · exact h'.2

theorem not_plain {s : St} (hm : s.mode = .text ∨ s.mode = .inTableText) : ¬ plain s.mode := fun h => by
  rcases hm with hm | hm
  · exact h.1 hm
  · exact h.2 hm

theorem text_late {s : St} (hm : s.mode = .text ∨ s.mode = .inTableText) (h : LateS s) : late s.original := by
  rcases h with h | h
  · exact absurd (late_plain h) (not_plain hm)
  · exact h.2

theorem text_back {s : St} (hs : Inv s) (hm : s.mode = .text) :
    Inv { s with opened := s.opened.tail, mode := s.original } ∧
      (LateS s → LateS { s with opened := s.opened.tail, mode := s.original }) := by
  have hl : LateS s → LateS { s with opened := s.opened.tail, mode := s.original } := fun h => .inl (text_late (.inl hm) h)
  refine ⟨⟨good_same (good_suffix hs.good (List.tail_suffix _)) s.original s.original s.queue s.switch s.finished s.quirks s.ignoreLf,
    .inl (text_original hs (.inl hm)), ?_⟩, hl⟩
  intro hf
  rcases hs.shape hf with h | h
  · exact .inl (hl h)
  · refine .inr ⟨h.context, .inl ?_⟩
    rcases h.stack with ⟨h1, _⟩ | ⟨_, h1, x, r, h2, _, h3⟩
    · exact absurd h1.1 (not_plain (.inl hm))
    · refine ⟨h1, ?_⟩
      show EarlyAt s.doc s.original s.opened.tail
      rw [h2]; exact h3

theorem inText_step (t : Token) {s : St} (hs : Inv s) (hm : s.mode = .text) : ∃ r s', inText t s = some (r, s') ∧ Step t s r s' := by
  obtain ⟨hb1, hb2⟩ := text_back hs hm
  have hdep : depth s.doc s.opened.tail ≤ depth s.doc s.opened := (mild_suffix (s := s) (List.tail_suffix _)).depth
  have done : t ≠ .eof → ∃ r s', fin (upd fun s => { s with opened := s.opened.tail, mode := s.original }) s = some (r, s') ∧ Step t s r s' :=
    fun ht => ⟨.done, _, rfl, hb1, Ext.refl _, rfl, id, ⟨.inl rfl, .inr ⟨ht, rfl⟩⟩, fun _ => hb2⟩
  cases t with
  | text v =>
    obtain ⟨_, d', h1, h2, h3⟩ := docOnly_insertText v s hs.good.ok.base
    refine ⟨.done, _, fin_eq h1, ⟨good_doc hs.good h2 h3, hs.held, ?_⟩, h3, rfl, id, ⟨.inl rfl, .inr ⟨(by intro h; cases h), rfl⟩⟩,
      fun _ h => h⟩
    intro hf
    rcases hs.shape hf with h | h
    · exact .inl h
    · refine .inr ⟨context_ext hs.good h3 rfl h.context, ?_⟩
      rcases h.stack with ⟨h1, _⟩ | ⟨e1, e2, x, r, e3, e4, e5⟩
      · exact absurd h1.1 (not_plain (.inl hm))
      · refine .inr ⟨e1, e2, x, r, e3, ?_, e5.ext (fun y hy => hs.good.ok.base.opened y ?_) h3⟩
        · show isHtml d' x = true
          rw [isHtml_ext h3 (hs.good.ok.base.opened x (by rw [e3]; simp))]; exact e4
        · rw [e3]; exact List.mem_cons_of_mem _ hy
  | eof =>
    refine ⟨.again, _, rfl, hb1, Ext.refl _, rfl, id, ⟨rfl, rfl, .inr ⟨hdep, ?_⟩⟩, fun _ => hb2⟩
    have := rank_plain (text_original hs (.inl hm)) .eof
    rw [hm]
    show 2 * rank s.original .eof + _ < 2 * 30 + _
    omega
  | comment v => exact done (by intro h; cases h)
  | doctype a b c d => exact done (by intro h; cases h)
  | startTag n sc as => exact done (by intro h; cases h)
  | endTag n => exact done (by intro h; cases h)

theorem does_bodyTokens (env : Env) : ∀ ps : List Str, (∀ p ∈ ps, isMixedNull p = false) → Does Mild (bodyTokens env (ps.map .text))
  | [], _ => does_pure ()
  | p :: ps, h => by
    show Does Mild (inBody env (.text p) >>= fun _ => bodyTokens env (ps.map .text))
    refine does_bind ?_ fun _ => does_bodyTokens env ps fun q hq => h q (List.mem_cons_of_mem _ hq)
    unfold inBody
    refine does_ite (fun hn => ?_) fun _ => ?_
    · have := h p (by simp)
      rw [this] at hn; cases hn
    · exact does_ite (fun _ => does_pure _) fun _ => does_bind (does_bodyText p) fun _ => does_pure _

theorem does_fosterSet (b : Bool) : Does Mild (upd fun s => { s with foster := b }) := does_upd fun s hs =>
  ⟨⟨⟨hs.ok.base, hs.ok.active, hs.ok.head, hs.ok.form, hs.ok.context, hs.ok.modes⟩, hs.bare⟩,
    ⟨⟨Ext.refl _, rfl, rfl, rfl, rfl, rfl, id⟩, Nat.le_refl _⟩⟩

/-- the pending characters go into the document, and the mode is the one before -/
theorem flushPending_ok (env : Env) {s : St} (hs : Good s) :
    ∃ s1, flushPending env s = some ((), { s1 with pending := [], mode := s1.original }) ∧ Good s1 ∧ Mild s s1 := by
  have key : Does Mild (if s.pending.any (fun c => !isWhite c) then (do
      upd fun s => { s with foster := true }
      bodyTokens env (splitMixed s.pending)
      upd fun s => { s with foster := false })
    else insertText s.pending) := by
    refine does_ite (fun _ => ?_) fun _ => (docOnly_insertText _).does
    exact does_bind (does_fosterSet true) fun _ => does_bind (does_bodyTokens env _ fun p hp => pieces_unmixed hp) fun _ => does_fosterSet false
  obtain ⟨_, s1, h1, h2, h3⟩ := key s hs
  refine ⟨s1, ?_, h2, h3⟩
  unfold flushPending
  rw [show ∀ (k : Str → M Unit), (ask (fun s => s.pending) >>= k) s = k s.pending s from fun _ => rfl]
  by_cases hc : (s.pending.any fun c => !isWhite c) = true
  · rw [if_pos hc] at h1
    dsimp only
    rw [if_pos hc]
    rw [bind_some h1]; rfl
  · rw [if_neg hc] at h1
    dsimp only
    rw [if_neg hc]
    rw [bind_some h1]; rfl

theorem inTableText_step (env : Env) (t : Token) {s : St} (hs : Inv s) (hm : s.mode = .inTableText) :
    ∃ r s', inTableText env t s = some (r, s') ∧ Step t s r s' := by
  have shape : ∀ {s' : St}, s'.mode = s.mode → s'.original = s.original → (s'.framesetOk = true → s.framesetOk = true) →
      s'.framesetOk = true → LateS s' := by
    intro s' h1 h2 h3 hf
    unfold LateS
    rw [h1, h2]
    rcases hs.shape (h3 hf) with h | h
    · exact h
    · rcases h.stack with ⟨h', _⟩ | ⟨h', _⟩
      · exact absurd h'.1 (not_plain (.inr hm))
      · rw [hm] at h'; cases h'
  cases t with
  | text v =>
    have ht : (.text v : Token) ≠ .eof := by intro h; cases h
    have same : ∀ {q : List Token}, Good { s with queue := q } → Inv { s with queue := q } := fun h =>
      ⟨h, hs.held, fun hf => .inl (shape rfl rfl id hf)⟩
    unfold inTableText
    dsimp only
    split
    · next h =>
      obtain ⟨r, s', h1, h2, q, rfl⟩ := post_splitMixed h hs.good
      exact ⟨r, _, h1, same h2.good, h2.ext, h2.context, h2.frameset, h2.out, fun hf _ => shape rfl rfl id hf⟩
    · split
      · exact ⟨.done, s, rfl, hs, Ext.refl _, rfl, id, ⟨.inl rfl, .inr ⟨ht, rfl⟩⟩, fun _ h => h⟩
      · refine ⟨.done, _, rfl, ⟨⟨⟨hs.good.ok.base, hs.good.ok.active, hs.good.ok.head, hs.good.ok.form, hs.good.ok.context,
          hs.good.ok.modes⟩, hs.good.bare⟩, hs.held, fun hf => .inl (shape rfl rfl id hf)⟩, Ext.refl _, rfl, id,
          ⟨.inl rfl, .inr ⟨ht, rfl⟩⟩, fun _ h => h⟩
  | _ =>
    all_goals
      obtain ⟨s1, h1, h2, h3⟩ := flushPending_ok env hs.good
      have ho : plain s1.original := by rw [h3.original]; exact text_original hs (.inr hm)
      have hg : Good { s1 with pending := [], mode := s1.original } :=
        ⟨⟨h2.ok.base, h2.ok.active, h2.ok.head, h2.ok.form, h2.ok.context, h2.ok.modes⟩, h2.bare⟩
      have hl : s1.framesetOk = true → LateS { s1 with pending := [], mode := s1.original } := fun hf =>
        .inl (text_late (s := s1) (.inr (h3.mode.trans hm)) (shape h3.mode h3.original h3.frameset hf))
      refine ⟨.again, _, (show re (flushPending env) s = _ by unfold re; rw [bind_some h1]; rfl), ⟨hg, .inl ho, fun hf => .inl (hl hf)⟩, h3.ext, h3.context,
        h3.frameset, ⟨h3.queue, h3.finished, .inr ⟨h3.depth, ?_⟩⟩, fun hf _ => hl hf⟩
      rw [hm]
      refine Nat.lt_of_le_of_lt (Nat.add_le_add_right (Nat.mul_le_mul_left 2 (rank_plain ho _)) _) ?_
      show 2 * 20 + _ < 2 * 29 + _
      omega

/-! ## All modes -/

theorem byMode_step (env : Env) (t : Token) {s : St} (hs : Inv s) : ∃ r s', byMode env s.mode t s = some (r, s') ∧ Step t s r s' := by
  by_cases hl : late s.mode
  · obtain ⟨r, s', h1, h2⟩ := late_okay env hl t s hs.good rfl
    exact ⟨r, s', h1, step_late hl h2⟩
  · cases hm : s.mode with
    | initial => exact initial_okay env t s hs hm
    | beforeHtml => exact beforeHtml_okay t s hs hm
    | beforeHead => exact beforeHead_okay t s hs hm
    | inHead => exact inHead_okay env t s hs hm
    | inHeadNoscript => exact inHeadNoscript_okay env t s hs hm
    | afterHead => exact afterHead_okay env t s hs hm
    | text => exact inText_step t hs hm
    | inTableText => exact inTableText_step env t hs hm
    | _ => all_goals exact absurd (by rw [hm]; decide) hl

/-! ## Tokens -/

/-- what a list of tokens counts for -/
def total (l : List Token) : Nat := (l.map weight).sum

/-- what has become of the token, for the loop -/
def Dealt (t : Token) (s : St) (r : Next) (s' : St) : Prop :=
  match r with
  | .done => (t = .eof ∧ s'.finished = true ∧ s'.queue = s.queue) ∨
      (t ≠ .eof ∧ s'.finished = s.finished ∧ total s'.queue < total s.queue + weight t ∧
        ∀ x ∈ s'.queue, x ∈ s.queue ∨ ∃ p, x = .text p)
  | .again => s'.queue = s.queue ∧ s'.finished = s.finished ∧ Low s t s' t
  | .other t' => s'.queue = s.queue ∧ s'.finished = s.finished ∧ Low s t s' t' ∧ weight t' ≤ weight t ∧ (t' = .eof ↔ t = .eof) ∧
      ∀ n sc as, t' = .startTag n sc as → is n "img" = true ∨ t = t'

/-- what processing a token does, for the loop -/
structure Round (t : Token) (s : St) (r : Next) (s' : St) : Prop where
  inv : Inv s'
  ext : Ext s.doc s'.doc
  context : s'.context = s.context
  frameset : s'.framesetOk = true → s.framesetOk = true
  dealt : Dealt t s r s'
  late : s'.framesetOk = true → LateS s → LateS s'

theorem weight_pos {t : Token} (h : t ≠ .eof) : 1 ≤ weight t := by
  cases t with
  | eof => exact absurd rfl h
  | text v =>
    show 1 ≤ if v = [] then 1 else 2 * v.length - 1
    split
    · exact Nat.le_refl _
    · next hv =>
      have : 0 < v.length := List.length_pos_iff.2 hv
      omega
  | _ => exact Nat.le_refl _

theorem total_append (a b : List Token) : total (a ++ b) = total a + total b := by
  unfold total; rw [List.map_append, List.sum_append]

theorem total_pieces : ∀ ps : List Str, (∀ p ∈ ps, p ≠ []) → total (ps.map .text) + ps.length = 2 * ps.flatten.length
  | [], _ => rfl
  | p :: ps, h => by
    have ih := total_pieces ps fun q hq => h q (List.mem_cons_of_mem _ hq)
    have hp : p ≠ [] := h p (by simp)
    have hl : 0 < p.length := List.length_pos_iff.2 hp
    have hw : weight (.text p) = 2 * p.length - 1 := by
      show (if p = [] then 1 else 2 * p.length - 1) = _
      rw [if_neg hp]
    have ht : total ((p :: ps).map HtmlTok.Token.text) = weight (.text p) + total (ps.map HtmlTok.Token.text) := rfl
    rw [ht, hw, List.length_cons, List.flatten_cons, List.length_append]
    omega

theorem queued_total {t : Token} {q q' : List Token} (ht : t ≠ .eof) (h : Queued t q q') :
    total q' < total q + weight t ∧ ∀ x ∈ q', x ∈ q ∨ ∃ p, x = .text p := by
  rcases h with rfl | ⟨ps, h1, rfl, h3, h4⟩
  · exact ⟨by have := weight_pos ht; omega, fun x hx => .inl hx⟩
  · refine ⟨?_, ?_⟩
    · have h5 := total_pieces ps h4
      have hw : 2 * ps.flatten.length ≤ weight t + 1 := by
        rw [h1]
        show _ ≤ (if ps.flatten = [] then 1 else 2 * ps.flatten.length - 1) + 1
        split
        · next he => rw [he]; simp
        · omega
      rw [total_append]
      omega
    · intro x hx
      rcases List.mem_append.1 hx with hx | hx
      · obtain ⟨p, _, rfl⟩ := List.mem_map.1 hx
        exact .inr ⟨p, rfl⟩
      · exact .inl hx

theorem Step.round {t : Token} {s s' : St} {r : Next} (h : Step t s r s') : Round t s r s' := by
  refine ⟨h.inv, h.ext, h.context, h.frameset, ?_, h.late⟩
  have ho := h.out
  cases r with
  | done =>
    obtain ⟨h1, h2⟩ := ho
    rcases h2 with ⟨rfl, h2⟩ | ⟨h2, h3⟩
    · refine .inl ⟨rfl, h2, ?_⟩
      rcases h1 with h1 | ⟨ps, h1, _⟩
      · exact h1
      · cases h1
    · exact .inr ⟨h2, h3, queued_total h2 h1⟩
  | again => exact ho
  | other t' => exact ho

theorem skip_text (lf : Bool) (v : Str) : ∃ v', skipLf lf (.text v) = .text v' ∧ weight (.text v') ≤ weight (.text v) := by
  unfold skipLf
  dsimp only
  split
  · split
    · next r =>
      refine ⟨r, rfl, ?_⟩
      show (if r = [] then 1 else 2 * r.length - 1) ≤ (if '\n' :: r = [] then 1 else 2 * ('\n' :: r).length - 1)
      rw [if_neg (List.cons_ne_nil _ _), List.length_cons]
      split <;> omega
    · exact ⟨_, rfl, Nat.le_refl _⟩
  · exact ⟨_, rfl, Nat.le_refl _⟩

theorem skip_eof (lf : Bool) (t : Token) : skipLf lf t = .eof ↔ t = .eof := by
  cases t with
  | text v =>
    obtain ⟨v', h1, _⟩ := skip_text lf v
    rw [h1]
    exact ⟨(fun h => by cases h), fun h => by cases h⟩
  | _ => exact Iff.rfl

theorem skip_other (lf : Bool) {t : Token} (h : ∀ v, t ≠ .text v) : skipLf lf t = t := by
  cases t with
  | text v => exact absurd rfl (h v)
  | _ => rfl

theorem skip_rank (lf : Bool) (t : Token) (m : Mode) : rank m (skipLf lf t) = rank m t ∧ image (skipLf lf t) = image t ∧
    weight (skipLf lf t) ≤ weight t := by
  cases t with
  | text v =>
    obtain ⟨v', h1, h2⟩ := skip_text lf v
    rw [h1]
    exact ⟨by cases m <;> rfl, rfl, h2⟩
  | _ => exact ⟨rfl, rfl, Nat.le_refl _⟩

theorem low_skip {s s' : St} {lf : Bool} {t t' : Token} (h : Low s (skipLf lf t) s' t') : Low s t s' t' := by
  obtain ⟨h1, h2, _⟩ := skip_rank lf t s.mode
  unfold Low at h ⊢
  rw [h1, h2] at h; exact h

theorem processHtml_round (env : Env) (t : Token) {s : St} (hs : Inv s) : ∃ r s', processHtml env t s = some (r, s') ∧ Round t s r s' := by
  have hs0 : Inv { s with ignoreLf := false } := ⟨good_same hs.good s.mode s.original s.queue s.switch s.finished s.quirks false, hs.held,
    fun hf => (hs.shape hf).imp id fun h => ⟨h.context, h.stack⟩⟩
  obtain ⟨r, s', h1, h2⟩ := byMode_step env (skipLf s.ignoreLf t) hs0
  have hr := h2.round
  refine ⟨r.keep (skipLf s.ignoreLf t), s', ?_, hr.inv, hr.ext, hr.context, hr.frameset, ?_, hr.late⟩
  · show (byMode env s.mode (skipLf s.ignoreLf t) >>= fun r => pure (r.keep (skipLf s.ignoreLf t))) { s with ignoreLf := false } = _
    exact (bind_some h1).trans rfl
  · have hd := hr.dealt
    obtain ⟨k1, k2, k3⟩ := skip_rank s.ignoreLf t s.mode
    cases r with
    | done =>
      rcases hd with ⟨e1, e2⟩ | ⟨e1, e2, e3, e4⟩
      · exact .inl ⟨(skip_eof _ t).1 e1, e2⟩
      · exact .inr ⟨fun h => e1 ((skip_eof _ t).2 h), e2, Nat.lt_of_lt_of_le e3 (Nat.add_le_add_left k3 _), e4⟩
    | again =>
      obtain ⟨e1, e2, e3⟩ := hd
      refine ⟨e1, e2, low_skip (s := s) e3, k3, skip_eof _ t, ?_⟩
      intro n sc as h
      refine .inr ?_
      cases t with
      | text v =>
        obtain ⟨v', h', _⟩ := skip_text s.ignoreLf v
        rw [h'] at h; cases h
      | _ => rfl
    | other t' =>
      obtain ⟨e1, e2, e3, e4, e5, e6⟩ := hd
      refine ⟨e1, e2, low_skip (s := s) e3, Nat.le_trans e4 k3, e5.trans (skip_eof _ t), ?_⟩
      intro n sc as h
      rcases e6 n sc as h with h' | h'
      · exact .inl h'
      · refine .inr ?_
        cases t with
        | text v =>
          obtain ⟨v', hv, _⟩ := skip_text s.ignoreLf v
          rw [hv, h] at h'; cases h'
        | _ => exact h'

/-! ## Foreign content -/

/-- the tags that leave foreign content -/
def leaves (n : Str) (as : Attrs) : Bool :=
  oneOf n breakout || is n "font" && as.any (fun kv => oneOf kv.1 ["color", "face", "size"])

theorem unwindForeign_suffix (d : Doc) : ∀ l, unwindForeign d l <:+ l
  | [] => List.suffix_refl _
  | x :: r => by
    unfold unwindForeign
    split
    · exact List.suffix_refl _
    · exact (unwindForeign_suffix d r).trans (List.suffix_cons x r)

theorem round_soft {t : Token} (ht : t ≠ .eof) {s s' : St} (hs : Inv s) (hl : s.framesetOk = true → LateS s) (h : Soft s s') (hg : Good s') :
    Round t s .done s' := by
  have hL : LateS s → LateS s' := fun h' => by unfold LateS; rw [h.mode, h.original]; exact h'
  refine ⟨⟨hg, ?_, fun hf => .inl (hL (hl (h.frameset hf)))⟩, h.ext, h.context, h.frameset, .inr ⟨ht, h.finished, ?_, ?_⟩, fun _ => hL⟩
  · unfold Held; rw [h.mode, h.original]; exact hs.held
  · rw [h.queue]; have := weight_pos ht; omega
  · intro x hx; rw [h.queue] at hx; exact .inl hx

theorem round_does {t : Token} (ht : t ≠ .eof) {m : M Unit} (hm : Does Soft m) {s : St} (hs : Inv s) (hl : s.framesetOk = true → LateS s) :
    ∃ r s', fin m s = some (r, s') ∧ Round t s r s' ∧ r = .done :=
  let ⟨_, s', h1, h2, h3⟩ := hm s hs.good
  ⟨.done, s', fin_eq h1, round_soft ht hs hl h3 h2, rfl⟩

theorem round_between {t : Token} {s s1 s2 : St} {r : Next} (h1 : Mild s s1) (h : Round t s1 r s2) : Round t s r s2 := by
  refine ⟨h.inv, h1.ext.trans h.ext, h.context.trans h1.context, fun hf => h1.frameset (h.frameset hf), ?_, fun hf hl => h.late hf ?_⟩
  · have hd := h.dealt
    cases r with
    | done =>
      rcases hd with ⟨e1, e2, e3⟩ | ⟨e1, e2, e3, e4⟩
      · exact .inl ⟨e1, e2, e3.trans h1.queue⟩
      · rw [h1.queue] at e3 e4
        exact .inr ⟨e1, e2.trans h1.finished, e3, e4⟩
    | again =>
      obtain ⟨e1, e2, e3⟩ := hd
      exact ⟨e1.trans h1.queue, e2.trans h1.finished, low_between h1 e3 (Mild.refl _)⟩
    | other t' =>
      obtain ⟨e1, e2, e3, e4⟩ := hd
      exact ⟨e1.trans h1.queue, e2.trans h1.finished, low_between h1 e3 (Mild.refl _), e4⟩
  · unfold LateS; rw [h1.mode, h1.original]; exact hl

theorem inv_mild {s s' : St} (hs : Inv s) (hl : s.framesetOk = true → LateS s) (h : Mild s s') (hg : Good s') : Inv s' := by
  refine ⟨hg, ?_, fun hf => .inl ?_⟩
  · unfold Held; rw [h.mode, h.original]; exact hs.held
  · unfold LateS; rw [h.mode, h.original]; exact hl (h.frameset hf)

theorem unexpectedHtml_round (env : Env) {t : Token} (ht : t ≠ .eof) {s : St} (hs : Inv s) (hl : s.framesetOk = true → LateS s) :
    ∃ r s', unexpectedHtml env t s = some (r, s') ∧ Round t s r s' := by
  have hsuf := unwindForeign_suffix s.doc s.opened
  have hm : Mild s { s with opened := unwindForeign s.doc s.opened } := mild_suffix hsuf
  have hi := inv_mild hs hl hm (good_suffix hs.good hsuf)
  show ∃ r s', ifM (fun s => s.opened.isEmpty) ignore (processHtml env t) { s with opened := unwindForeign s.doc s.opened } = some (r, s') ∧ _
  unfold ifM
  split
  · exact ⟨.done, _, rfl, round_soft ht hs hl hm.toSoft hi.good⟩
  · obtain ⟨r, s', h1, h2⟩ := processHtml_round env t hi
    exact ⟨r, s', h1, round_between hm h2⟩

theorem svgTag_body {n : Str} (h : is n "body" = false) : is (svgTag n) "body" = false := by
  unfold svgTag
  cases hf : svgTags.find? fun p => is n p.1 with
  | none => exact h
  | some p =>
    have hp := List.mem_of_find?_eq_some hf
    have : ∀ p ∈ svgTags, is p.2.toList "body" = false := by decide +kernel
    exact this p hp

theorem foreignStart_round (env : Env) {n : Str} (sc : Bool) (as : Attrs) (hb : is n "body" = false) {s : St} (hs : Inv s)
    (hl : s.framesetOk = true → LateS s) (hns : (ns s.doc (adjustedCurrent s)).getD htmlNs ≠ htmlNs) :
    ∃ r s', foreignStart env n sc as s = some (r, s') ∧ Round (.startTag n sc as) s r s' ∧ r = .done := by
  unfold foreignStart
  refine round_does (by intro h; cases h) ?_ hs hl
  refine does_bind (does_insertElement _ ?_ fun h => absurd h hns) fun _ => does_ite (fun _ => does_pop.soft) fun _ => does_pure ()
  split
  · exact svgTag_body hb
  · exact hb

theorem foreignEndLoop_ok (env : Env) (d : Doc) (n : Str) (first : Nat) : ∀ l : List Nat, l.getLast? = some first →
    foreignEndLoop env d n first l ≠ .outOfRange
  | [], h => by cases h
  | x :: r, h => by
    unfold foreignEndLoop
    split
    · exact fun h => by cases h
    · next hx =>
      split
      · exact fun h => by cases h
      · cases r with
        | nil =>
          simp only [List.getLast?_singleton, Option.some.injEq] at h
          exact absurd h hx
        | cons y r =>
          dsimp only
          split
          · exact fun h => by cases h
          · exact foreignEndLoop_ok env d n first (y :: r) (by rw [List.getLast?_cons_cons] at h; exact h)

theorem foreignEnd_round (env : Env) (n : Str) {s : St} (hs : Inv s) (hl : s.framesetOk = true → LateS s) :
    ∃ r s', foreignEnd env n s = some (r, s') ∧ Round (.endTag n) s r s' := by
  have ht : (.endTag n : Token) ≠ .eof := by intro h; cases h
  have none : ∃ r s', some (Next.done, s) = some (r, s') ∧ Round (.endTag n) s r s' :=
    ⟨.done, s, rfl, round_soft ht hs hl (Soft.refl s) hs.good⟩
  unfold foreignEnd
  split
  · exact none
  · next first hf =>
    split
    · exact none
    · next x _ =>
      have hsuf : popThrough x s.opened <:+ s.opened := popTo_suffix _ _
      exact ⟨.done, _, rfl, round_soft ht hs hl (mild_suffix hsuf).toSoft (good_suffix hs.good hsuf)⟩
    · exact processHtml_round env _ hs
    · next h => exact absurd h (foreignEndLoop_ok env s.doc n first s.opened hf)

/-- what a token handled as foreign content must be for the loop to go on -/
def Leaving (t : Token) : Prop := ∀ n sc as, t = .startTag n sc as → leaves n as = true

theorem leaving_next {t : Token} {s s' : St} {r : Next} (h : Round t s r s') (ht : Leaving t) :
    (r = .again → Leaving t) ∧ ∀ t', r = .other t' → Leaving t' := by
  refine ⟨fun _ => ht, ?_⟩
  rintro t' rfl n sc as rfl
  rcases h.dealt.2.2.2.2.2 n sc as rfl with h1 | h1
  · unfold leaves
    rw [is_iff.1 h1]
    have : oneOf "img".toList breakout = true := by decide +kernel
    rw [this]; rfl
  · exact ht n sc as h1

theorem processForeign_round (env : Env) {t : Token} (ht : t ≠ .eof) {s : St} (hs : Inv s) (hl : s.framesetOk = true → LateS s)
    (hc : Leaving t ∨ (ns s.doc (adjustedCurrent s)).getD htmlNs ≠ htmlNs) :
    ∃ r s', processForeign env t s = some (r, s') ∧ Round t s r s' ∧ (r = .again → Leaving t) ∧ ∀ t', r = .other t' → Leaving t' := by
  have fin' : ∀ {m : M Unit}, Does Soft m → ∃ r s', fin m s = some (r, s') ∧ Round t s r s' ∧ (r = .again → Leaving t) ∧
      ∀ t', r = .other t' → Leaving t' := by
    intro m hm
    obtain ⟨r, s', h1, h2, rfl⟩ := round_does ht hm hs hl
    exact ⟨.done, s', h1, h2, (fun h => by cases h), fun t' h => by cases h⟩
  have go : ∀ {h : M Next}, Leaving t → (∃ r s', h s = some (r, s') ∧ Round t s r s') → ∃ r s', h s = some (r, s') ∧ Round t s r s' ∧
      (r = .again → Leaving t) ∧ ∀ t', r = .other t' → Leaving t' := by
    rintro h hL ⟨r, s', h1, h2⟩
    exact ⟨r, s', h1, h2, leaving_next h2 hL⟩
  cases t with
  | text v =>
    unfold processForeign
    dsimp only
    split
    · next h =>
      obtain ⟨r, s', h1, h2, q, rfl⟩ := post_splitMixed h hs.good
      refine go (fun n sc as h => by cases h) ⟨r, _, h1, ?_⟩
      have hL : s.framesetOk = true → LateS { s with queue := q } := hl
      exact (⟨⟨h2.good, hs.held, fun hf => .inl (hL hf)⟩, h2.ext, h2.context, h2.frameset, h2.out, fun hf _ => hL hf⟩ : Step _ _ _ _).round
    · split
      · exact fin' (docOnly_insertText _).does.soft
      · split
        · exact fin' (docOnly_insertText _).does.soft
        · exact fin' (does_bind (docOnly_insertText _).does.soft fun _ => does_noFrameset.soft)
  | comment v => exact fin' (docOnly_insertComment v).does.soft
  | doctype a b c d => exact fin' (m := pure ()) (does_pure ())
  | startTag n sc as =>
    unfold processForeign
    dsimp only
    split
    · next h =>
      refine go ?_ (unexpectedHtml_round env ht hs hl)
      intro n' sc' as' e
      cases e
      unfold leaves; rw [h]; rfl
    · next h1 =>
      split
      · next h =>
        refine go ?_ (unexpectedHtml_round env ht hs hl)
        intro n' sc' as' e
        cases e
        unfold leaves; rw [h, Bool.or_true]
      · next h2 =>
        have hb : is n "body" = false := by
          refine Bool.eq_false_iff.2 fun h => h1 ?_
          rw [is_iff.1 h]; decide +kernel
        have hns : (ns s.doc (adjustedCurrent s)).getD htmlNs ≠ htmlNs := by
          rcases hc with hc | hc
          · have := hc n sc as rfl
            unfold leaves at this
            rw [Bool.or_eq_true] at this
            rcases this with h | h
            · exact absurd h h1
            · exact absurd h h2
          · exact hc
        obtain ⟨r, s', e1, e2, rfl⟩ := foreignStart_round env sc as hb hs hl hns
        exact ⟨.done, s', e1, e2, (fun h => by cases h), fun t' h => by cases h⟩
  | endTag n =>
    have hL : Leaving (.endTag n) := fun n sc as h => by cases h
    unfold processForeign
    dsimp only
    split
    · exact go hL (unexpectedHtml_round env ht hs hl)
    · split
      · exact fin' does_pop.soft
      · exact go hL (foreignEnd_round env n hs hl)
  | eof => exact absurd rfl ht

end Verif.TreeBuild
