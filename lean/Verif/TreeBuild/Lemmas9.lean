import Verif.TreeBuild.Lemmas8

/-!
# The modes before the body
-/
namespace Verif.TreeBuild
open Verif Verif.Dom

/-! ## What holds between two tokens -/

/-- the modes before the body -/
def early (m : Mode) : Prop := plain m ∧ ¬ late m

instance (m : Mode) : Decidable (early m) := inferInstanceAs (Decidable (_ ∧ _))

/-- the mode, or the one to come back to, is one from the body on -/
def LateS (s : St) : Prop := late s.mode ∨ (s.mode = .text ∨ s.mode = .inTableText) ∧ late s.original

/-- how many elements are open at least -/
def need : Mode → Nat
  | .beforeHead => 1
  | .afterHead => 1
  | .inHead => 2
  | .inHeadNoscript => 3
  | _ => 0

/-- the stack before the body -/
structure EarlyAt (d : Doc) (m : Mode) (l : List Nat) : Prop where
  html : ∀ x ∈ l, isHtml d x = true
  many : need m ≤ l.length
  last : ∀ y, l.getLast? = some y → is (tag d y) "html" = true

/-- the state before the body -/
structure EarlyS (s : St) : Prop where
  context : ∀ c, s.context = some c → isHtml s.doc c = true
  stack : (early s.mode ∧ EarlyAt s.doc s.mode s.opened) ∨
    (s.mode = .text ∧ early s.original ∧ ∃ x r, s.opened = x :: r ∧ isHtml s.doc x = true ∧ EarlyAt s.doc s.original r)

/-- there is a mode to come back to -/
def Held (s : St) : Prop := plain s.mode ∨ (s.mode = .text ∨ s.mode = .inTableText) ∧ plain s.original

/-- what holds between two tokens -/
structure Inv (s : St) : Prop where
  good : Good s
  held : Held s
  shape : s.framesetOk = true → LateS s ∨ EarlyS s

/-- what processing a token does -/
structure Step (t : Token) (s : St) (r : Next) (s' : St) : Prop where
  inv : Inv s'
  ext : Ext s.doc s'.doc
  context : s'.context = s.context
  frameset : s'.framesetOk = true → s.framesetOk = true
  out : Out t s r s'
  late : s'.framesetOk = true → LateS s → LateS s'

theorem LateS.plain {s : St} (h : LateS s) (hp : plain s.mode) : late s.mode := by
  rcases h with h | ⟨h | h, _⟩
  · exact h
  · exact absurd h hp.1
  · exact absurd h hp.2

theorem EarlyS.plain {s : St} (h : EarlyS s) (hp : plain s.mode) : early s.mode ∧ EarlyAt s.doc s.mode s.opened := by
  rcases h.stack with h | ⟨h, _⟩
  · exact h
  · exact absurd h hp.1

/-- from a mode from the body on -/
theorem step_late {t : Token} {s s' : St} {r : Next} (hm : late s.mode) (h : Post t s r s') : Step t s r s' := by
  have hl : s'.framesetOk = true → LateS s' := by
    intro hf
    rcases h.mode with ⟨h1, _⟩ | ⟨h1, h2⟩ | ⟨_, h2⟩
    · exact .inl (by rw [h1]; exact hm)
    · exact .inr ⟨h1, by rw [h2]; exact hm⟩
    · exact .inl (h2 hf)
  refine ⟨⟨h.good, ?_, fun hf => .inl (hl hf)⟩, h.ext, h.context, h.frameset, h.out, fun hf _ => hl hf⟩
  rcases h.mode with ⟨h1, _⟩ | ⟨h1, h2⟩ | ⟨h2, _⟩
  · exact .inl (by rw [h1]; exact late_plain hm)
  · exact .inr ⟨h1, by rw [h2]; exact late_plain hm⟩
  · exact .inl h2

theorem EarlyAt.ext {d d' : Doc} {m : Mode} {l : List Nat} (h : EarlyAt d m l) (hl : ∀ x ∈ l, live d x) (he : Ext d d') : EarlyAt d' m l := by
  refine ⟨fun x hx => by rw [isHtml_ext he (hl x hx)]; exact h.html x hx, h.many, fun y hy => ?_⟩
  rw [(he y (hl y (List.mem_of_getLast? hy))).2.1]
  exact h.last y hy

theorem EarlyAt.push {d : Doc} {m k : Mode} {l : List Nat} {x : Nat} (h : EarlyAt d m l) (hx : isHtml d x = true)
    (ht : l = [] → is (tag d x) "html" = true) (hk : need k ≤ l.length + 1) : EarlyAt d k (x :: l) := by
  refine ⟨?_, hk, ?_⟩
  · intro y hy
    rcases List.mem_cons.1 hy with rfl | hy
    · exact hx
    · exact h.html y hy
  · intro y hy
    cases l with
    | nil => simp only [List.getLast?_singleton, Option.some.injEq] at hy; subst hy; exact ht rfl
    | cons z r => rw [List.getLast?_cons_cons] at hy; exact h.last y hy

theorem EarlyAt.pop {d : Doc} {m k : Mode} {l : List Nat} (h : EarlyAt d m l) (hk : need k + 1 ≤ need m) : EarlyAt d k l.tail := by
  have hm := h.many
  cases l with
  | nil => simp only [List.length_nil] at hm; omega
  | cons x r =>
    simp only [List.length_cons] at hm
    refine ⟨fun y hy => h.html y (List.mem_cons_of_mem _ hy), by simp only [List.tail_cons]; omega, fun y hy => ?_⟩
    cases r with
    | nil => cases hy
    | cons z r => exact h.last y (by rw [List.getLast?_cons_cons]; exact hy)

/-! ## Handlers shared with later modes -/

/-- the ways a handler shared by all modes goes -/
def Fam (s s' : St) : Prop :=
  (s'.mode = s.mode ∧ s'.original = s.original ∧ s'.opened = s.opened) ∨
    (s'.mode = .text ∧ s'.original = s.mode ∧ ∃ x, s'.opened = x :: s.opened ∧ isHtml s'.doc x = true ∧ is (tag s'.doc x) "head" = false) ∨
    (plain s'.mode ∧ (s'.framesetOk = true → late s'.mode))

/-- a handler shared by all modes -/
def FOkay (t : Token) (h : M Next) : Prop := ∀ s, Good s → ∃ r s', h s = some (r, s') ∧ Post t s r s' ∧ Fam s s'

theorem fokay_doc {t : Token} (ht : t ≠ .eof) {m : M Unit} (hm : DocOnly m) : FOkay t (fin m) := by
  intro s hs
  obtain ⟨_, d', h1, h2, h3⟩ := hm s hs.ok.base
  exact ⟨.done, _, fin_eq h1, ⟨⟨h3, rfl, id, .inl ⟨rfl, rfl⟩⟩, good_doc hs h2 h3, .inl rfl, .inr ⟨ht, rfl⟩⟩, .inl ⟨rfl, rfl, rfl⟩⟩

theorem fokay_ignore {t : Token} (ht : t ≠ .eof) : FOkay t ignore := fokay_doc ht (docOnly_pure ())

theorem fokay_ite {t : Token} {c : Prop} [Decidable c] {a b : M Next} (ha : c → FOkay t a) (hb : ¬ c → FOkay t b) :
    FOkay t (if c then a else b) := by
  split
  · next h => exact ha h
  · next h => exact hb h

theorem fokay_ifM {t : Token} {c : St → Bool} {a b : M Next} (ha : FOkay t a) (hb : FOkay t b) : FOkay t (ifM c a b) := by
  intro s hs
  unfold ifM
  split
  · exact ha s hs
  · exact hb s hs

theorem fokay_split {v : Str} (h : isMixed v = true) : FOkay (.text v) (fin (putBack (splitMixed v))) := by
  intro s hs
  obtain ⟨r, s', h1, h2, q, rfl⟩ := post_splitMixed h hs
  exact ⟨r, _, h1, h2, .inl ⟨rfl, rfl, rfl⟩⟩

theorem fokay_text {t : Token} (ht : t ≠ .eof) (c : HtmlTok.Content) {n : Str} (as : Attrs) (hq : quiet n) (hh : is n "head" = false) :
    FOkay t (fin (do insert_ n as; textMode c)) := by
  intro s hs
  obtain ⟨i, d', h1, h2, h3, _, h5, h6, h7, _⟩ := insertElement_eq n htmlNs as hs.ok.base
  have hg : Good { s with doc := d', opened := i :: s.opened } := good_push hs h2 h3 h5 (h6 ▸ hq.2) (fun _ => h6 ▸ hq.1)
  refine ⟨.done, { s with doc := d', opened := i :: s.opened, switch := some c, original := s.mode, mode := .text }, ?_,
    ⟨⟨h3, rfl, id, .inr (.inl ⟨.inl rfl, rfl⟩)⟩,
    good_same hg .text s.mode s.queue (some c) s.finished s.quirks s.ignoreLf, .inl rfl, .inr ⟨ht, rfl⟩⟩,
    .inr (.inl ⟨rfl, rfl, i, rfl, ?_, ?_⟩)⟩
  · unfold fin insert_ insertHtml
    rw [bind_assoc', bind_assoc', bind_some h1]; rfl
  · unfold isHtml
    show decide (ns d' i = _) = true
    rw [h7]; exact decide_eq_true rfl
  · show is (tag d' i) "head" = false
    rw [h6]; exact hh

theorem fokay_startTemplate {t : Token} (ht : t ≠ .eof) (n : Str) (as : Attrs) : FOkay t (startTemplate n as) := by
  intro s hs
  obtain ⟨_, s', h1, h2, h3, h4⟩ := does_startTemplate n as s hs
  refine ⟨.done, s', fin_eq h1, ⟨h3.toTurn, h2, .inl h3.queue, .inr ⟨ht, h3.finished⟩⟩, ?_⟩
  have hm : s'.mode = .inTemplate := by
    have h5 : ∀ {s s' : St} {a : Unit} {e c : Nat}, whenM (fun s => isElement s.doc e) (do let _ ← dom (.setTemplate e c); pure ()) s =
        some (a, s') → s'.mode = s.mode := by
      intro s s' a e c h
      unfold whenM ifM at h
      split at h
      · rw [bind_eq] at h
        cases hd : dom (.setTemplate e c) s with
        | none => rw [hd] at h; cases h
        | some r =>
          rw [hd] at h
          cases h
          unfold dom at hd
          cases hst : step s.doc (.setTemplate e c) with
          | none => rw [hst] at hd; cases hd
          | some x => rw [hst] at hd; cases hd; rfl
      · cases h; rfl
    obtain ⟨i, d', e1, _⟩ := insertElement_eq n htmlNs as hs.ok.base
    unfold insertHtml at h1
    rw [bind_some e1] at h1
    exact (h5 h1).trans rfl
  exact .inr (.inr ⟨by rw [hm]; decide, fun hf => by rw [h4] at hf; cases hf⟩)

theorem fokay_startHtml {t : Token} (ht : t ≠ .eof) (as : Attrs) : FOkay t (startHtml as) :=
  fokay_ifM (fokay_ignore ht) (fokay_doc ht (docOnly_rootAttrs as))

theorem fokay_endTemplate {t : Token} (ht : t ≠ .eof) : FOkay t endTemplate := by
  refine fokay_ifM ?_ (fokay_ignore ht)
  intro s hs
  have : ∃ s', ((do
      implied none true
      popNamed "template".toList
      clearMarker
      upd fun s => { s with templateModes := s.templateModes.tail }
      reset) : M Unit) s = some ((), s') ∧ Good s' ∧ Shift s s' ∧ plain s'.mode ∧ (s'.framesetOk = true → late s'.mode) := by
    obtain ⟨_, s1, e1, e2, e3⟩ := does_implied none true s hs
    obtain ⟨l, h1, h2, h3, h4, _⟩ := popNamed_ok e2 (k := "template") (by decide)
    have h6 : Good { s1 with opened := l, active := afterMarker s1.active } :=
      good_active h2 fun x hx => h2.ok.active x ((afterMarker_suffix s1.active).mem hx)
    obtain ⟨h7, h8, h9⟩ := reset_ok (good_tail h6) h4
    refine ⟨_, by rw [bind_some e1, bind_some h1]; rfl, h7,
      soft_shift (e3.toSoft.trans ((h3.toSoft.trans (mild_active _ _).toSoft).trans (soft_modes _ _))) h8,
      resetMode_plain (good_tail h6).ok.modes _, ?_⟩
    intro hf
    exact (h9 (h4 hf)) ▸ (show late .inBody by decide)
  obtain ⟨s', h1, h2, h3, h4⟩ := this
  exact ⟨.done, s', fin_eq h1, ⟨h3.toTurn, h2, .inl h3.queue, .inr ⟨ht, h3.finished⟩⟩, .inr (.inr h4)⟩

theorem fokay_head (env : Env) {n : Str} (sc : Bool) (as : Attrs) (hn : oneOf n headNames = true) :
    FOkay (.startTag n sc as) (inHead env (.startTag n sc as)) := by
  have ht : (.startTag n sc as : Token) ≠ .eof := by intro h; cases h
  have hno : is n "noscript" = false := oneOf_elim (fun n => is n "noscript" = false) (by decide) hn
  have hhd : is n "head" = false := oneOf_elim (fun n => is n "head" = false) (by decide) hn
  unfold inHead
  refine fokay_ite (fun _ => fokay_startHtml ht as) fun _ => ?_
  refine fokay_ite (fun _ => fokay_doc ht (docOnly_insertVoid _ _)) fun h1 => ?_
  refine fokay_ite (fun _ => fokay_doc ht (docOnly_insertVoid _ _)) fun h2 => ?_
  refine fokay_ite (fun h => fokay_text ht _ as (by rw [is_iff.1 h]; decide) hhd) fun h3 => ?_
  refine fokay_ite (fun h => absurd h (by rw [hno]; simp)) fun _ => ?_
  refine fokay_ite (fun h => fokay_text ht _ as (oneOf_elim quiet (by decide) h) hhd) fun h4 => ?_
  refine fokay_ite (fun h => absurd h (by rw [hno]; simp)) fun _ => ?_
  refine fokay_ite (fun h => fokay_text ht _ as (by rw [is_iff.1 h]; decide) hhd) fun h5 => ?_
  refine fokay_ite (fun _ => fokay_startTemplate ht n as) fun h6 => ?_
  exfalso
  have := oneOf_elim (fun n => (oneOf n ["base", "basefont", "bgsound", "link"] || is n "meta" || is n "title" ||
    oneOf n ["noframes", "style"] || is n "script" || is n "template") = true) (by decide +kernel) hn
  simp only [Bool.or_eq_true] at this
  rcases this with ((((h | h) | h) | h) | h) | h
  exacts [h1 h, h2 h, h3 h, h4 h, h5 h, h6 h]

/-! ## Handlers of the early modes -/

/-- the handler of an early mode -/
def EOkay (m : Mode) (t : Token) (h : M Next) : Prop := ∀ s, Inv s → s.mode = m → ∃ r s', h s = some (r, s') ∧ Step t s r s'

theorem eokay_ite {m : Mode} {t : Token} {c : Prop} [Decidable c] {a b : M Next} (ha : c → EOkay m t a) (hb : ¬ c → EOkay m t b) :
    EOkay m t (if c then a else b) := by
  split
  · next h => exact ha h
  · next h => exact hb h

theorem inv_early {s : St} (h : Inv s) {m : Mode} (hm : s.mode = m) (he : early m) (hf : s.framesetOk = true) : EarlyS s := by
  subst hm
  rcases h.shape hf with h' | h'
  · exact absurd (h'.plain he.1) he.2
  · exact h'

theorem early_late {s : St} {m : Mode} (hm : s.mode = m) (he : early m) : ¬ LateS s := fun h => by
  subst hm; exact he.2 (h.plain he.1)

theorem context_ext {s s' : St} (hs : Good s) (he : Ext s.doc s'.doc) (hc : s'.context = s.context)
    (h : ∀ c, s.context = some c → isHtml s.doc c = true) : ∀ c, s'.context = some c → isHtml s'.doc c = true := by
  intro c hc'
  rw [hc] at hc'
  rw [isHtml_ext he (hs.ok.context c hc')]
  exact h c hc'

theorem eokay_fam {m : Mode} {t : Token} {h : M Next} (he : early m) (hf : FOkay t h) : EOkay m t h := by
  intro s hs hm
  obtain ⟨r, s', h1, h2, h3⟩ := hf s hs.good
  refine ⟨r, s', h1, ⟨h2.good, ?_, ?_⟩, h2.ext, h2.context, h2.frameset, h2.out, fun _ hl => absurd hl (early_late hm he)⟩
  · rcases h3 with ⟨h3, _⟩ | ⟨h3, h4, _⟩ | ⟨h3, _⟩
    · exact .inl (by rw [h3, hm]; exact he.1)
    · exact .inr ⟨.inl h3, by rw [h4, hm]; exact he.1⟩
    · exact .inl h3
  · intro hf'
    have hE := inv_early hs hm he (h2.frameset hf')
    have hA : EarlyAt s'.doc s.mode s.opened := (hE.plain (by rw [hm]; exact he.1)).2.ext hs.good.ok.base.opened h2.ext
    have hc := context_ext hs.good h2.ext h2.context hE.context
    rcases h3 with ⟨h3, _, h5⟩ | ⟨h3, h4, x, h5, h6, _⟩ | ⟨_, h3⟩
    · exact .inr ⟨hc, .inl ⟨by rw [h3, hm]; exact he, by rw [h3, h5]; exact hA⟩⟩
    · exact .inr ⟨hc, .inr ⟨h3, by rw [h4, hm]; exact he, x, s.opened, h5, h6, by rw [h4]; exact hA⟩⟩
    · exact .inl (.inl (h3 hf'))

/-- going from one early mode to another mode -/
def Move (m k : Mode) (act : M Unit) : Prop :=
  ∀ s, Good s → (s.framesetOk = true → EarlyAt s.doc m s.opened) →
    ∃ s', act s = some ((), s') ∧ Good s' ∧ To k s s' ∧ (s'.framesetOk = true → EarlyAt s.doc m s.opened → late k ∨ EarlyAt s'.doc k s'.opened)

theorem move_step {m k : Mode} {act : M Unit} (he : early m) (hk : plain k) (h : Move m k act) {s : St} (hs : Inv s) (hm : s.mode = m) :
    ∃ s', act s = some ((), s') ∧ To k s s' ∧ Inv s' := by
  have hA : s.framesetOk = true → EarlyAt s.doc m s.opened := fun hf => by
    have := ((inv_early hs hm he hf).plain (by rw [hm]; exact he.1)).2
    rw [hm] at this; exact this
  obtain ⟨s', h1, h2, h3, h4⟩ := h s hs.good hA
  refine ⟨s', h1, h3, h2, .inl (by rw [h3.mode]; exact hk), ?_⟩
  intro hf
  have hf' := h3.frameset hf
  by_cases hl : late k
  · exact .inl (.inl (by rw [h3.mode]; exact hl))
  · rcases h4 hf (hA hf') with h5 | h5
    · exact absurd h5 hl
    · exact .inr ⟨context_ext hs.good h3.ext h3.context (inv_early hs hm he hf').context,
        .inl ⟨by rw [h3.mode]; exact ⟨hk, hl⟩, by rw [h3.mode]; exact h5⟩⟩

theorem eokay_re {m k : Mode} {t : Token} {act : M Unit} (he : early m) (hk : plain k) (h : Move m k act) (hr : rank k t < rank m t) :
    EOkay m t (re act) := by
  intro s hs hm
  obtain ⟨s', h1, h2, h3⟩ := move_step he hk h hs hm
  exact ⟨.again, s', by unfold re; rw [bind_some h1]; rfl, h3, h2.ext, h2.context, h2.frameset,
    ⟨h2.queue, h2.finished, h2.low (by rw [hm]; exact hr)⟩, fun _ hl => absurd hl (early_late hm he)⟩

theorem eokay_fin {m k : Mode} {t : Token} {act : M Unit} (ht : t ≠ .eof) (he : early m) (hk : plain k) (h : Move m k act) :
    EOkay m t (fin act) := by
  intro s hs hm
  obtain ⟨s', h1, h2, h3⟩ := move_step he hk h hs hm
  exact ⟨.done, s', fin_eq h1, h3, h2.ext, h2.context, h2.frameset,
    ⟨.inl h2.queue, .inr ⟨ht, h2.finished⟩⟩, fun _ hl => absurd hl (early_late hm he)⟩

theorem move_quirks : Move .initial .beforeHtml (upd fun s => { s with quirks := true, mode := .beforeHtml }) := by
  intro s hs _
  exact ⟨_, rfl, good_same hs .beforeHtml s.original s.queue s.switch s.finished true s.ignoreLf,
    ⟨Ext.refl _, rfl, rfl, rfl, id, Nat.le_refl _, rfl⟩, fun _ h => .inr ⟨h.html, Nat.zero_le _, h.last⟩⟩

theorem depth_doc {s : St} (hs : Good s) {d' : Doc} (he : Ext s.doc d') : depth d' s.opened ≤ depth s.doc s.opened :=
  Nat.le_of_eq (depth_ext hs.ok.base.opened he)

theorem move_doctype (n p y : Option Str) (q : St → Bool) : Move .initial .beforeHtml (do
    insertDoctype n p y
    upd fun s => { s with quirks := q s, mode := .beforeHtml }) := by
  intro s hs _
  obtain ⟨_, d', h1, h2, h3⟩ := docOnly_insertDoctype n p y s hs.ok.base
  refine ⟨_, by rw [bind_some h1]; rfl,
    good_same (good_doc hs h2 h3) .beforeHtml s.original s.queue s.switch s.finished (q { s with doc := d' }) s.ignoreLf,
    ⟨h3, rfl, rfl, rfl, id, depth_doc hs h3, rfl⟩, fun _ h => .inr ?_⟩
  have := h.ext hs.ok.base.opened h3
  exact ⟨this.html, Nat.zero_le _, this.last⟩

theorem isHtml_ns {d : Doc} {i : Nat} (h : ns d i = some htmlNs) : isHtml d i = true := by
  unfold isHtml; rw [h]; exact decide_eq_true rfl

theorem insertRoot_eq (as : Attrs) {s : St} (hs : Base s.doc s.opened) :
    ∃ n d', insertRoot as s = some ((), { s with doc := d', opened := n :: s.opened }) ∧ Fine d' ∧ Ext s.doc d' ∧
      live d' n ∧ tag d' n = "html".toList ∧ ns d' n = some htmlNs := by
  obtain ⟨d1, n, h1, hM, h2, h3, h4⟩ := made_element hs.fine "html".toList htmlNs as
  obtain ⟨d2, h5, h6, h7⟩ := insertAt_ok (s := { s with doc := d1 }) hM.fine (pl := .lastChild 0) hM.here hM.loose (hM.ext 0 hs.fine.root).1
  obtain ⟨h8, h9, h10⟩ := h7 n hM.here
  refine ⟨n, d2, ?_, h6, hM.ext.trans h7, h8, h9.trans h2, h10.trans h3⟩
  unfold insertRoot
  rw [bind_some (dom_new h1), bind_some h5]; rfl

theorem move_root (as : Attrs) : Move .beforeHtml .beforeHead (do
    insertRoot as
    setMode .beforeHead) := by
  intro s hs _
  obtain ⟨n, d', h1, h2, h3, h5, h6, h7⟩ := insertRoot_eq as hs.ok.base
  have hg : Good { s with doc := d', opened := n :: s.opened } := good_push hs h2 h3 h5 (by rw [h6]; decide) (fun _ => by rw [h6]; decide)
  refine ⟨_, by rw [bind_some h1]; rfl, good_same hg .beforeHead s.original s.queue s.switch s.finished s.quirks s.ignoreLf,
    ⟨h3, rfl, rfl, rfl, id, Nat.le_of_eq (depth_push hs.ok.base h3 (by rw [h6]; decide)), rfl⟩, fun _ h => .inr ?_⟩
  exact (h.ext hs.ok.base.opened h3).push (isHtml_ns h7) (fun _ => by rw [h6]; decide) (Nat.le_add_left 1 _)

theorem EarlyAt.ne {d : Doc} {m : Mode} {l : List Nat} (h : EarlyAt d m l) (hm : 1 ≤ need m) : l ≠ [] := by
  rintro rfl
  have := h.many
  simp only [List.length_nil] at this
  omega

theorem move_head (as : Attrs) : Move .beforeHead .inHead (startHead as) := by
  intro s hs _
  obtain ⟨n, d', h1, h2, h3, _, h5, h6, h7, _⟩ := insertElement_eq "head".toList htmlNs as hs.ok.base
  have hg : Good { s with doc := d', opened := n :: s.opened } := good_push hs h2 h3 h5 (by rw [h6]; decide) (fun _ => by rw [h6]; decide)
  refine ⟨{ s with doc := d', opened := n :: s.opened, head := some n, mode := .inHead }, ?_, ?_,
    ⟨h3, rfl, rfl, rfl, id, Nat.le_of_eq (depth_push hs.ok.base h3 (by rw [h6]; decide)), rfl⟩, fun _ h => .inr ?_⟩
  · unfold startHead insertHtml
    rw [bind_some h1]; rfl
  · exact ⟨⟨hg.ok.base, hg.ok.active, (fun x hx => by cases hx; exact ⟨h5, h6⟩), hg.ok.form, hg.ok.context, hg.ok.modes⟩, hg.bare⟩
  · refine (h.ext hs.ok.base.opened h3).push (isHtml_ns h7) (fun e => absurd e (h.ne (by decide))) ?_
    have := h.many
    exact Nat.succ_le_succ this

theorem move_pop {m k : Mode} (hk : need k + 1 ≤ need m) : Move m k (do
    pop
    setMode k) := by
  intro s hs _
  have hsuf : s.opened.tail <:+ s.opened := List.tail_suffix _
  refine ⟨_, rfl, good_same (good_suffix hs hsuf) k s.original s.queue s.switch s.finished s.quirks s.ignoreLf,
    ⟨Ext.refl _, rfl, rfl, rfl, id, (mild_suffix (s := s) hsuf).depth, rfl⟩, fun _ h => .inr (h.pop hk)⟩

theorem move_noscript {n : Str} (hn : is n "noscript" = true) (as : Attrs) : Move .inHead .inHeadNoscript (do
    insert_ n as
    setMode .inHeadNoscript) := by
  intro s hs _
  obtain rfl := is_iff.1 hn
  obtain ⟨n, d', h1, h2, h3, _, h5, h6, h7, _⟩ := insertElement_eq "noscript".toList htmlNs as hs.ok.base
  have hg : Good { s with doc := d', opened := n :: s.opened } := good_push hs h2 h3 h5 (by rw [h6]; decide) (fun _ => by rw [h6]; decide)
  refine ⟨_, ?_, good_same hg .inHeadNoscript s.original s.queue s.switch s.finished s.quirks s.ignoreLf,
    ⟨h3, rfl, rfl, rfl, id, Nat.le_of_eq (depth_push hs.ok.base h3 (by rw [h6]; decide)), rfl⟩, fun _ h => .inr ?_⟩
  · unfold insert_ insertHtml
    rw [bind_assoc', bind_some h1]; rfl
  · refine (h.ext hs.ok.base.opened h3).push (isHtml_ns h7) (fun e => absurd e (h.ne (by decide))) ?_
    have := h.many
    exact Nat.succ_le_succ this

theorem move_to {m k : Mode} {act : M Unit} (hk : late k) (h : Does (To k) act) : Move m k act := fun s hs _ =>
  let ⟨_, s', h1, h2, h3⟩ := h s hs
  ⟨s', h1, h2, h3, fun _ _ => .inl hk⟩

theorem move_bodyTag {n : Str} (as : Attrs) (hn : is n "body" = true) : Move .afterHead .inBody (do
    insert_ n as
    noFrameset
    setMode .inBody) := by
  intro s hs _
  obtain rfl := is_iff.1 hn
  obtain ⟨n, d', h1, h2, h3, _, h5, h6, h7, _⟩ := insertElement_eq "body".toList htmlNs as hs.ok.base
  have hok := ok_push hs.ok h2 h3 h5
  refine ⟨{ s with doc := d', opened := n :: s.opened, framesetOk := false, mode := .inBody }, ?_,
    ⟨⟨hok.base, hok.active, hok.head, hok.form, hok.context, hok.modes⟩, fun h => by cases h⟩,
    ⟨h3, rfl, rfl, rfl, (fun h => by cases h), Nat.le_of_eq (depth_push hs.ok.base h3 (by rw [h6]; decide)), rfl⟩, fun h => by cases h⟩
  unfold insert_ insertHtml
  rw [bind_assoc', bind_some h1]; rfl

/-- before the body, the stack has an `html` element at its end -/
theorem EarlyAt.anchors {d : Doc} {m : Mode} {l : List Nat} (h : EarlyAt d m l) (hm : 1 ≤ need m) : l.filter (anchor d) ≠ [] := by
  intro he
  have hl : l.getLast? = some (l.getLast (h.ne hm)) := List.getLast?_eq_some_getLast (h.ne hm)
  have h1 := h.last _ hl
  have h2 := List.mem_of_getLast? hl
  have h3 : l.getLast (h.ne hm) ∈ l.filter (anchor d) := by
    refine List.mem_filter.2 ⟨h2, ?_⟩
    unfold anchor
    rw [h.html _ h2, is_iff.1 h1]; decide
  rw [he] at h3; cases h3

theorem bare_body {d : Doc} {l : List Nat} {n : Nat} (h : Bare d l) (ht : tag d n = "body".toList) (hn : isHtml d n = true)
    (ha : l.filter (anchor d) ≠ []) : Bare d (n :: l) := by
  refine ⟨?_, ?_, ?_⟩
  · intro x hx hh
    rcases List.mem_cons.1 hx with rfl | hx
    · rw [ht]; decide
    · exact h.none x hx hh
  · intro x hx hb
    rcases List.mem_cons.1 hx with rfl | hx
    · exact hn
    · exact h.body x hx hb
  · intro y hy
    have han : anchor d n = true := by unfold anchor; rw [hn, ht]; decide
    rw [List.filter_cons, if_pos han] at hy
    cases hl : l.filter (anchor d) with
    | nil => exact absurd hl ha
    | cons a r =>
      rw [hl, List.getLast?_cons_cons] at hy
      exact h.base y (by rw [hl]; exact hy)

theorem move_body : Move .afterHead .inBody (do
    insert_ "body".toList []
    setMode .inBody) := by
  intro s hs hE
  obtain ⟨n, d', h1, h2, h3, _, h5, h6, h7, _⟩ := insertElement_eq "body".toList htmlNs [] hs.ok.base
  have hok := ok_push hs.ok h2 h3 h5
  refine ⟨{ s with doc := d', opened := n :: s.opened, mode := .inBody }, ?_,
    ⟨⟨hok.base, hok.active, hok.head, hok.form, hok.context, hok.modes⟩, fun hf => ?_⟩,
    ⟨h3, rfl, rfl, rfl, id, Nat.le_of_eq (depth_push hs.ok.base h3 (by rw [h6]; decide)), rfl⟩, fun _ _ => .inl (by decide)⟩
  · unfold insert_ insertHtml
    rw [bind_assoc', bind_some h1]; rfl
  · exact bare_body (bare_ext (hs.bare hf) hs.ok.base.opened h3) h6 (isHtml_ns h7)
      (((hE hf).ext hs.ok.base.opened h3).anchors (by decide))

theorem initial_okay (env : Env) (t : Token) : EOkay .initial t (initial env t) := by
  have other : EOkay .initial t (re (upd fun s => { s with quirks := true, mode := .beforeHtml })) :=
    eokay_re (by decide) (by decide) move_quirks (show 19 < 20 by decide)
  cases t with
  | text v =>
    unfold initial
    refine eokay_ite (fun h => eokay_fam (by decide) (fokay_split h)) fun _ => ?_
    exact eokay_ite (fun _ => eokay_fam (by decide) (fokay_ignore (by intro h; cases h))) fun _ => other
  | comment v => exact eokay_fam (by decide) (fokay_doc (by intro h; cases h) (docOnly_commentRoot v))
  | doctype n q p y => exact eokay_fin (by intro h; cases h) (by decide) (by decide) (move_doctype n p y _)
  | startTag n sc as => exact other
  | endTag n => exact other
  | eof => exact other

theorem beforeHtml_okay (t : Token) : EOkay .beforeHtml t (beforeHtml t) := by
  have other : EOkay .beforeHtml t (re (do insertRoot []; setMode .beforeHead)) :=
    eokay_re (by decide) (by decide) (move_root []) (show 18 < 19 by decide)
  cases t with
  | text v =>
    unfold beforeHtml
    refine eokay_ite (fun h => eokay_fam (by decide) (fokay_split h)) fun _ => ?_
    exact eokay_ite (fun _ => eokay_fam (by decide) (fokay_ignore (by intro h; cases h))) fun _ => other
  | comment v => exact eokay_fam (by decide) (fokay_doc (by intro h; cases h) (docOnly_commentRoot v))
  | doctype n q p y => exact eokay_fam (by decide) (fokay_ignore (by intro h; cases h))
  | startTag n sc as =>
    unfold beforeHtml
    exact eokay_ite (fun _ => eokay_fin (by intro h; cases h) (by decide) (by decide) (move_root as)) fun _ => other
  | endTag n =>
    unfold beforeHtml
    exact eokay_ite (fun _ => other) fun _ => eokay_fam (by decide) (fokay_ignore (by intro h; cases h))
  | eof => exact other

theorem beforeHead_okay (t : Token) : EOkay .beforeHead t (beforeHead t) := by
  have other : EOkay .beforeHead t (re (startHead [])) :=
    eokay_re (by decide) (by decide) (move_head []) (show 16 < 18 by decide)
  cases t with
  | text v =>
    unfold beforeHead
    refine eokay_ite (fun h => eokay_fam (by decide) (fokay_split h)) fun _ => ?_
    exact eokay_ite (fun _ => eokay_fam (by decide) (fokay_ignore (by intro h; cases h))) fun _ => other
  | comment v => exact eokay_fam (by decide) (fokay_doc (by intro h; cases h) (docOnly_insertComment v))
  | doctype n q p y => exact eokay_fam (by decide) (fokay_ignore (by intro h; cases h))
  | startTag n sc as =>
    unfold beforeHead
    refine eokay_ite (fun _ => eokay_fam (by decide) (fokay_startHtml (by intro h; cases h) as)) fun _ => ?_
    exact eokay_ite (fun _ => eokay_fin (by intro h; cases h) (by decide) (by decide) (move_head as)) fun _ => other
  | endTag n =>
    unfold beforeHead
    exact eokay_ite (fun _ => other) fun _ => eokay_fam (by decide) (fokay_ignore (by intro h; cases h))
  | eof => exact other

theorem inHead_okay (env : Env) (t : Token) : EOkay .inHead t (inHead env t) := by
  have other : EOkay .inHead t headElse := eokay_re (by decide) (by decide) (move_pop (by decide)) (show 15 < 16 by decide)
  cases t with
  | text v =>
    unfold inHead
    refine eokay_ite (fun h => eokay_fam (by decide) (fokay_split h)) fun _ => ?_
    exact eokay_ite (fun _ => eokay_fam (by decide) (fokay_doc (by intro h; cases h) (docOnly_insertText v))) fun _ => other
  | comment v => exact eokay_fam (by decide) (fokay_doc (by intro h; cases h) (docOnly_insertComment v))
  | doctype n q p y => exact eokay_fam (by decide) (fokay_ignore (by intro h; cases h))
  | startTag n sc as =>
    have ht : (.startTag n sc as : Token) ≠ .eof := by intro h; cases h
    by_cases hn : oneOf n headNames = true
    · exact eokay_fam (by decide) (fokay_head env sc as hn)
    · unfold inHead
      refine eokay_ite (fun _ => eokay_fam (by decide) (fokay_startHtml ht as)) fun _ => ?_
      refine eokay_ite (fun h => absurd (oneOf_elim (fun n => oneOf n headNames = true) (by decide +kernel) h) hn) fun _ => ?_
      refine eokay_ite (fun h => absurd (by rw [is_iff.1 h]; decide) hn) fun _ => ?_
      refine eokay_ite (fun h => absurd (by rw [is_iff.1 h]; decide) hn) fun _ => ?_
      refine eokay_ite (fun h => ?_) fun _ => ?_
      · rw [Bool.and_eq_true] at h
        exact eokay_fam (by decide) (fokay_text ht _ as (by rw [is_iff.1 h.1]; decide) (by rw [is_iff.1 h.1]; decide))
      refine eokay_ite (fun h => absurd (oneOf_elim (fun n => oneOf n headNames = true) (by decide +kernel) h) hn) fun _ => ?_
      refine eokay_ite (fun h => eokay_fin ht (by decide) (by decide) (move_noscript h as)) fun _ => ?_
      refine eokay_ite (fun h => absurd (by rw [is_iff.1 h]; decide) hn) fun _ => ?_
      refine eokay_ite (fun h => absurd (by rw [is_iff.1 h]; decide) hn) fun _ => ?_
      exact eokay_ite (fun _ => eokay_fam (by decide) (fokay_ignore ht)) fun _ => other
  | endTag n =>
    have ht : (.endTag n : Token) ≠ .eof := by intro h; cases h
    unfold inHead
    refine eokay_ite (fun _ => eokay_fin ht (by decide) (by decide) (move_pop (k := .afterHead) (by decide))) fun _ => ?_
    refine eokay_ite (fun _ => other) fun _ => ?_
    exact eokay_ite (fun _ => eokay_fam (by decide) (fokay_endTemplate ht)) fun _ => eokay_fam (by decide) (fokay_ignore ht)
  | eof => exact other

theorem inHeadNoscript_okay (env : Env) (t : Token) : EOkay .inHeadNoscript t (inHeadNoscript env t) := by
  have other : EOkay .inHeadNoscript t (re (do pop; setMode .inHead)) :=
    eokay_re (by decide) (by decide) (move_pop (by decide)) (show 16 < 17 by decide)
  cases t with
  | text v =>
    have ht : (.text v : Token) ≠ .eof := by intro h; cases h
    unfold inHeadNoscript
    refine eokay_ite (fun hm => eokay_fam (by decide) (fokay_split hm)) fun hm => ?_
    refine eokay_ite (fun hb => ?_) fun _ => other
    have : inHead env (.text v) = fin (insertText v) := by
      show (if isMixed v = true then _ else if isBlank v = true then _ else _) = _
      rw [if_neg hm, if_pos hb]
    rw [this]
    exact eokay_fam (by decide) (fokay_doc ht (docOnly_insertText v))
  | comment v => exact eokay_fam (by decide) (fokay_doc (by intro h; cases h) (docOnly_insertComment v))
  | doctype n q p y => exact eokay_fam (by decide) (fokay_ignore (by intro h; cases h))
  | startTag n sc as =>
    have ht : (.startTag n sc as : Token) ≠ .eof := by intro h; cases h
    unfold inHeadNoscript
    refine eokay_ite (fun _ => eokay_fam (by decide) (fokay_startHtml ht as)) fun _ => ?_
    refine eokay_ite (fun h => eokay_fam (by decide) (fokay_head env sc as ?_)) fun _ => ?_
    · exact oneOf_elim (fun n => oneOf n headNames = true) (by decide +kernel) h
    exact eokay_ite (fun _ => eokay_fam (by decide) (fokay_ignore ht)) fun _ => other
  | endTag n =>
    have ht : (.endTag n : Token) ≠ .eof := by intro h; cases h
    unfold inHeadNoscript
    refine eokay_ite (fun _ => eokay_fin ht (by decide) (by decide) (move_pop (k := .inHead) (by decide))) fun _ => ?_
    exact eokay_ite (fun _ => other) fun _ => eokay_fam (by decide) (fokay_ignore ht)
  | eof => exact other

end Verif.TreeBuild
