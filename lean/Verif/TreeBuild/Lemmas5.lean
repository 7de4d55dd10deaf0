import Verif.TreeBuild.Lemmas4

/-!
# What a handler does
-/
namespace Verif.TreeBuild
open Verif Verif.Dom

/-! ## How near a token is to being dealt with -/

/-- the name of a start tag is one of these -/
def startOf (t : Token) (l : List String) : Bool :=
  match t with
  | .startTag n _ _ => oneOf n l
  | _ => false

/-- how many modes a token can still be passed on to -/
def rank (m : Mode) (t : Token) : Nat :=
  match m with
  | .text => 30
  | .inTableText => match t with
    | .text _ => 0
    | _ => 29
  | .initial => 20
  | .beforeHtml => 19
  | .beforeHead => 18
  | .inHeadNoscript => 17
  | .inHead => 16
  | .afterHead => 15
  | .inTemplate => 14
  | .afterAfterBody => 13
  | .inSelectInTable => 12
  | .afterBody => match t with
    | .endTag n => if is n "html" then 5 else 11
    | _ => 11
  | .inBody => 10
  | .inCaption => 10
  | .inCell => 9
  | .inTableBody => 7
  | .inRow => if startOf t ["td", "th"] then 6 else 8
  | .inTable => if startOf t ["td", "th", "tr"] then 8 else 6
  | .inColumnGroup => if startOf t ["col"] then 1 else 9
  | _ => 3

/-- an `image` tag is passed on as `img` -/
def image (t : Token) : Nat := if startOf t ["image"] then 1 else 0

/-- the token is nearer to being dealt with -/
def Low (s : St) (t : Token) (s' : St) (t' : Token) : Prop :=
  depth s'.doc s'.opened < depth s.doc s.opened ∨
    depth s'.doc s'.opened ≤ depth s.doc s.opened ∧ 2 * rank s'.mode t' + image t' < 2 * rank s.mode t + image t

/-- what a token counts for -/
def weight : Token → Nat
  | .text v => if v = [] then 1 else 2 * v.length - 1
  | .eof => 0
  | _ => 1

/-- the queue is as before, or has the parts of a text in front -/
def Queued (t : Token) (q q' : List Token) : Prop :=
  q' = q ∨ ∃ ps : List Str, t = .text ps.flatten ∧ q' = ps.map .text ++ q ∧ 2 ≤ ps.length ∧ ∀ p ∈ ps, p ≠ []

/-! ## Changes of mode -/

/-- the mode is as before, or one to come back from, or one that is not left for an early one -/
structure Turn (s s' : St) : Prop where
  ext : Ext s.doc s'.doc
  context : s'.context = s.context
  frameset : s'.framesetOk = true → s.framesetOk = true
  mode : (s'.mode = s.mode ∧ s'.original = s.original) ∨ ((s'.mode = .text ∨ s'.mode = .inTableText) ∧ s'.original = s.mode) ∨
    (plain s'.mode ∧ (s'.framesetOk = true → late s'.mode))

/-- … and the queue is as before -/
structure Shift (s s' : St) : Prop extends Turn s s' where
  queue : s'.queue = s.queue
  finished : s'.finished = s.finished

theorem Soft.shift {s s' : St} (h : Soft s s') : Shift s s' :=
  ⟨⟨h.ext, h.context, h.frameset, .inl ⟨h.mode, h.original⟩⟩, h.queue, h.finished⟩

theorem soft_turn {a b c : St} (h : Soft a b) (h' : Turn b c) : Turn a c := by
  refine ⟨h.ext.trans h'.ext, h'.context.trans h.context, fun x => h.frameset (h'.frameset x), ?_⟩
  rcases h'.mode with ⟨h1, h2⟩ | ⟨h1, h2⟩ | h1
  · exact .inl ⟨h1.trans h.mode, h2.trans h.original⟩
  · exact .inr (.inl ⟨h1, h2.trans h.mode⟩)
  · exact .inr (.inr h1)

theorem soft_shift {a b c : St} (h : Soft a b) (h' : Shift b c) : Shift a c :=
  ⟨soft_turn h h'.toTurn, h'.queue.trans h.queue, h'.finished.trans h.finished⟩

theorem turn_soft {a b c : St} (h : Turn a b) (h' : Soft b c) : Turn a c := by
  refine ⟨h.ext.trans h'.ext, h'.context.trans h.context, fun x => h.frameset (h'.frameset x), ?_⟩
  rw [h'.mode, h'.original]
  rcases h.mode with h1 | h1 | ⟨h1, h2⟩
  · exact .inl h1
  · exact .inr (.inl h1)
  · exact .inr (.inr ⟨h1, fun x => h2 (h'.frameset x)⟩)

theorem shift_soft {a b c : St} (h : Shift a b) (h' : Soft b c) : Shift a c :=
  ⟨turn_soft h.toTurn h', h'.queue.trans h.queue, h'.finished.trans h.finished⟩

/-- the mode is this one now, and no more elements are open after which it is reset -/
structure To (m : Mode) (s s' : St) : Prop where
  ext : Ext s.doc s'.doc
  queue : s'.queue = s.queue
  finished : s'.finished = s.finished
  context : s'.context = s.context
  frameset : s'.framesetOk = true → s.framesetOk = true
  depth : depth s'.doc s'.opened ≤ depth s.doc s.opened
  mode : s'.mode = m

theorem mild_to {m : Mode} {a b c : St} (h : Mild a b) (h' : To m b c) : To m a c :=
  ⟨h.ext.trans h'.ext, h'.queue.trans h.queue, h'.finished.trans h.finished, h'.context.trans h.context,
    fun x => h.frameset (h'.frameset x), Nat.le_trans h'.depth h.depth, h'.mode⟩

theorem to_mild {m : Mode} {a b c : St} (h : To m a b) (h' : Mild b c) : To m a c :=
  ⟨h.ext.trans h'.ext, h'.queue.trans h.queue, h'.finished.trans h.finished, h'.context.trans h.context,
    fun x => h.frameset (h'.frameset x), Nat.le_trans h'.depth h.depth, h'.mode.trans h.mode⟩

theorem To.shift {m : Mode} {s s' : St} (h : To m s s') (hm : late m) : Shift s s' :=
  ⟨⟨h.ext, h.context, h.frameset, .inr (.inr ⟨by rw [h.mode]; exact hm.2.2.2.2.2.2, fun _ => by rw [h.mode]; exact hm⟩)⟩,
    h.queue, h.finished⟩

theorem does_mono {α : Type} {R R' : St → St → Prop} {m : M α} (h : Does R m) (hr : ∀ s s', R s s' → R' s s') : Does R' m := fun s hs =>
  let ⟨a, s', h1, h2, h3⟩ := h s hs
  ⟨a, s', h1, h2, hr s s' h3⟩

theorem Does.shift {α : Type} {m : M α} (h : Does Soft m) : Does Shift m := does_mono h fun _ _ => Soft.shift

theorem does_seq {α β : Type} {R R' R'' : St → St → Prop} {m : M α} {f : α → M β} (hc : ∀ a b c, R a b → R' b c → R'' a c)
    (h : Does R m) (hf : ∀ a, Does R' (f a)) : Does R'' (m >>= f) := by
  intro s hs
  obtain ⟨a, s1, h1, h2, h3⟩ := h s hs
  obtain ⟨b, s2, h4, h5, h6⟩ := hf a s1 h2
  exact ⟨b, s2, by rw [bind_some h1, h4], h5, hc _ _ _ h3 h6⟩

theorem seq_shift {α β : Type} {m : M α} {f : α → M β} (h : Does Soft m) (hf : ∀ a, Does Shift (f a)) : Does Shift (m >>= f) :=
  does_seq (R := Soft) (R' := Shift) (fun _ _ _ => soft_shift) h hf

theorem seq_shift_soft {α β : Type} {m : M α} {f : α → M β} (h : Does Shift m) (hf : ∀ a, Does Soft (f a)) : Does Shift (m >>= f) :=
  does_seq (R := Shift) (R' := Soft) (fun _ _ _ => shift_soft) h hf

theorem seq_to {α β : Type} {k : Mode} {m : M α} {f : α → M β} (h : Does Mild m) (hf : ∀ a, Does (To k) (f a)) : Does (To k) (m >>= f) :=
  does_seq (R := Mild) (R' := To k) (fun _ _ _ => mild_to) h hf

theorem seq_to_mild {α β : Type} {k : Mode} {m : M α} {f : α → M β} (h : Does (To k) m) (hf : ∀ a, Does Mild (f a)) : Does (To k) (m >>= f) :=
  does_seq (R := To k) (R' := Mild) (fun _ _ _ => to_mild) h hf

theorem ok_same {s : St} (h : Ok s) (m o : Mode) (q : List Token) (sw : Option HtmlTok.Content) (f : Bool) (qk : Bool) (lf : Bool) :
    Ok { s with mode := m, original := o, queue := q, switch := sw, finished := f, quirks := qk, ignoreLf := lf } :=
  ⟨h.base, h.active, h.head, h.form, h.context, h.modes⟩

theorem good_same {s : St} (h : Good s) (m o : Mode) (q : List Token) (sw : Option HtmlTok.Content) (f : Bool) (qk : Bool) (lf : Bool) :
    Good { s with mode := m, original := o, queue := q, switch := sw, finished := f, quirks := qk, ignoreLf := lf } :=
  ⟨ok_same h.ok m o q sw f qk lf, h.bare⟩

theorem does_setMode (m : Mode) : Does (To m) (setMode m) := fun s hs =>
  ⟨(), _, rfl, good_same hs m s.original s.queue s.switch s.finished s.quirks s.ignoreLf,
    ⟨Ext.refl _, rfl, rfl, rfl, id, Nat.le_refl _, rfl⟩⟩

theorem does_textMode (c : HtmlTok.Content) : Does Shift (textMode c) := fun s hs =>
  ⟨(), _, rfl, good_same hs .text s.mode s.queue (some c) s.finished s.quirks s.ignoreLf,
    ⟨⟨Ext.refl _, rfl, id, .inr (.inl ⟨.inl rfl, rfl⟩)⟩, rfl, rfl⟩⟩

theorem does_rawData {n : Str} (as : Attrs) (hq : quiet n) : Does Shift (rawData n as) :=
  seq_shift (does_insert_ as hq).soft fun _ => does_textMode _

theorem does_rcData {n : Str} (as : Attrs) (hq : quiet n) : Does Shift (rcData n as) :=
  seq_shift (does_insert_ as hq).soft fun _ => does_textMode _

theorem bind_assoc' {α β γ : Type} (m : M α) (f : α → M β) (g : β → M γ) : ((m >>= f) >>= g) = (m >>= fun a => f a >>= g) := by
  funext s
  rw [bind_eq, bind_eq, bind_eq]
  cases m s with
  | none => rfl
  | some r => rfl

/-- any element can be pushed if no `frameset` is accepted afterwards -/
theorem does_pushNo (n : Str) (as : Attrs) : Does Soft (insert_ n as >>= fun _ => noFrameset) := by
  intro s hs
  obtain ⟨i, d', h1, h2, h3, _, h5, _⟩ := insertElement_eq n htmlNs as hs.ok.base
  refine ⟨(), { s with doc := d', opened := i :: s.opened, framesetOk := false }, ?_, ⟨?_, fun h => by cases h⟩,
    ⟨h3, rfl, rfl, rfl, rfl, rfl, fun h => by cases h⟩⟩
  · unfold insert_ insertHtml
    rw [bind_assoc', bind_some h1]; rfl
  · have := ok_push hs.ok h2 h3 h5
    exact ⟨this.base, this.active, this.head, this.form, this.context, this.modes⟩

theorem does_pushNo_then {n : Str} {as : Attrs} {k : M Unit} (hk : Does Shift k) :
    Does Shift (insert_ n as >>= fun _ => noFrameset >>= fun _ => k) := by
  rw [← bind_assoc']
  exact seq_shift (does_pushNo n as) fun _ => hk

/-! ## Results -/

/-- what has become of the token -/
def Out (t : Token) (s : St) (r : Next) (s' : St) : Prop :=
  match r with
  | .done => Queued t s.queue s'.queue ∧ (t = .eof ∧ s'.finished = true ∨ t ≠ .eof ∧ s'.finished = s.finished)
  | .again => s'.queue = s.queue ∧ s'.finished = s.finished ∧ Low s t s' t
  | .other t' => s'.queue = s.queue ∧ s'.finished = s.finished ∧ Low s t s' t' ∧ weight t' ≤ weight t ∧ (t' = .eof ↔ t = .eof) ∧
      ∀ n sc as, t' = .startTag n sc as → is n "img" = true ∨ t = t'

/-- what a handler leaves behind -/
structure Post (t : Token) (s : St) (r : Next) (s' : St) : Prop extends Turn s s' where
  good : Good s'
  out : Out t s r s'

/-- the handler does its work in these modes -/
def Okay (P : Mode → Prop) (t : Token) (h : M Next) : Prop :=
  ∀ s, Good s → P s.mode → ∃ r s', h s = some (r, s') ∧ Post t s r s'

theorem post_fin {t : Token} {m : M Unit} (ht : t ≠ .eof) (hm : Does Shift m) {s : St} (hs : Good s) :
    ∃ r s', fin m s = some (r, s') ∧ Post t s r s' := by
  obtain ⟨a, s', h1, h2, h3⟩ := hm s hs
  exact ⟨.done, s', by unfold fin; rw [bind_some h1]; rfl, h3.toTurn, h2, .inl h3.queue, .inr ⟨ht, h3.finished⟩⟩

theorem okay_fin {P : Mode → Prop} {t : Token} {m : M Unit} (ht : t ≠ .eof) (hm : Does Shift m) : Okay P t (fin m) := fun _ hs _ =>
  post_fin ht hm hs

theorem okay_mild {P : Mode → Prop} {t : Token} {m : M Unit} (ht : t ≠ .eof) (hm : Does Mild m) : Okay P t (fin m) :=
  okay_fin ht hm.soft.shift

theorem okay_ignore {P : Mode → Prop} {t : Token} (ht : t ≠ .eof) : Okay P t ignore := fun s hs _ =>
  ⟨.done, s, rfl, (Soft.refl s).shift.toTurn, hs, .inl rfl, .inr ⟨ht, rfl⟩⟩

theorem okay_ifM {P : Mode → Prop} {t : Token} {c : St → Bool} {a b : M Next} (ha : Okay P t a) (hb : Okay P t b) :
    Okay P t (ifM c a b) := by
  intro s hs hp
  unfold ifM
  split
  · exact ha s hs hp
  · exact hb s hs hp

theorem okay_ite {P : Mode → Prop} {t : Token} {c : Prop} [Decidable c] {a b : M Next} (ha : c → Okay P t a) (hb : ¬ c → Okay P t b) :
    Okay P t (if c then a else b) := by
  split
  · next h => exact ha h
  · next h => exact hb h

theorem okay_weaken {P Q : Mode → Prop} {t : Token} {h : M Next} (ho : Okay P t h) (hq : ∀ m, Q m → P m) : Okay Q t h :=
  fun s hs hp => ho s hs (hq _ hp)

theorem okay_re {P : Mode → Prop} {t : Token} {m : M Unit}
    (hm : ∀ s, Good s → P s.mode → ∃ s', m s = some ((), s') ∧ Good s' ∧ Shift s s' ∧ Low s t s' t) : Okay P t (re m) := by
  intro s hs hp
  obtain ⟨s', h1, h2, h3, h4⟩ := hm s hs hp
  exact ⟨.again, s', by unfold re; rw [bind_some h1]; rfl, h3.toTurn, h2, h3.queue, h3.finished, h4⟩

theorem To.low {m : Mode} {s s' : St} {t : Token} (h : To m s s') (hr : rank m t < rank s.mode t) : Low s t s' t := by
  refine .inr ⟨h.depth, ?_⟩
  rw [h.mode]; omega

theorem okay_reTo {P : Mode → Prop} {t : Token} {m : M Unit} {k : Mode} (hm : Does (To k) m) (hk : late k)
    (hr : ∀ m, P m → rank k t < rank m t) : Okay P t (re m) :=
  okay_re fun s hs hp =>
    let ⟨_, s', h1, h2, h3⟩ := hm s hs
    ⟨s', h1, h2, h3.shift hk, h3.low (hr _ hp)⟩

/-! ## Splitting text -/

theorem splitLoop_flatten (g : Char → Group) : ∀ (v : Str) (last : Option Group) (found : Str),
    (splitLoop g last found v).flatten = found ++ v
  | [], last, found => by
    unfold splitLoop
    split
    · next h => rw [h]; rfl
    · simp
  | c :: r, last, found => by
    unfold splitLoop
    split
    · rw [List.flatten_cons, splitLoop_flatten g r]; simp
    · rw [splitLoop_flatten g r]; simp

theorem splitLoop_nonempty (g : Char → Group) : ∀ (v : Str) (last : Option Group) (found : Str), ∀ p ∈ splitLoop g last found v, p ≠ []
  | [], last, found => by
    unfold splitLoop
    split
    · simp
    · next h => intro p hp; simp only [List.mem_singleton] at hp; exact hp ▸ h
  | c :: r, last, found => by
    unfold splitLoop
    split
    · next h =>
      intro p hp
      rcases List.mem_cons.1 hp with rfl | hp
      · exact h.2
      · exact splitLoop_nonempty g r _ _ p hp
    · exact splitLoop_nonempty g r _ _

theorem splitLoop_same (g : Char → Group) : ∀ (v : Str) (last : Option Group) (found : Str), (∀ c ∈ found, last = some (g c)) →
    ∀ p ∈ splitLoop g last found v, ∀ c ∈ p, ∀ c' ∈ p, g c = g c'
  | [], last, found, hf => by
    unfold splitLoop
    split
    · simp
    · intro p hp c hc c' hc'
      simp only [List.mem_singleton] at hp
      subst hp
      exact Option.some.inj ((hf c hc).symm.trans (hf c' hc'))
  | x :: r, last, found, hf => by
    unfold splitLoop
    split
    · intro p hp
      rcases List.mem_cons.1 hp with rfl | hp
      · exact fun c hc c' hc' => Option.some.inj ((hf c hc).symm.trans (hf c' hc'))
      · exact splitLoop_same g r _ _ (by intro c hc; simp only [List.mem_singleton] at hc; rw [hc]) p hp
    · next h =>
      refine splitLoop_same g r _ _ ?_
      intro c hc
      rcases List.mem_append.1 hc with hc | hc
      · have hl : last = some (g x) := by
          by_cases he : last = some (g x)
          · exact he
          · exact absurd ⟨he, List.ne_nil_of_mem hc⟩ h
        rw [← hl]; exact hf c hc
      · simp only [List.mem_singleton] at hc; rw [hc]

theorem splitLoop_two {g : Char → Group} {v : Str} (h : ∃ c ∈ v, ∃ c' ∈ v, g c ≠ g c') : 2 ≤ (splitLoop g none [] v).length := by
  have hf := splitLoop_flatten g v none []
  have hs := splitLoop_same g v none [] (by simp)
  obtain ⟨c, hc, c', hc', hne⟩ := h
  rcases hl : splitLoop g none [] v with _ | ⟨p, _ | ⟨q, r⟩⟩
  · rw [hl] at hf
    simp only [List.flatten_nil, List.nil_append] at hf
    rw [← hf] at hc; cases hc
  · rw [hl] at hf hs
    simp only [List.flatten_cons, List.flatten_nil, List.append_nil, List.nil_append] at hf
    subst hf
    exact absurd (hs p (by simp) c hc c' hc') hne
  · simp

theorem isMixed_two {v : Str} (h : isMixed v = true) : ∃ c ∈ v, ∃ c' ∈ v, group c ≠ group c' := by
  unfold isMixed at h
  rw [decide_eq_true_eq] at h
  have hg : ∀ c, isWhite c = true → group c = .white := by
    intro c hc
    unfold group
    rw [if_neg, if_pos hc]
    rintro rfl
    exact absurd hc (by decide)
  have hz : ∀ c, c = nul → group c = .zero := fun c hc => by unfold group; rw [if_pos hc]
  have hr : ∀ c, (!isWhite c && decide (c ≠ nul)) = true → group c = .rest := by
    intro c hc
    rw [Bool.and_eq_true, Bool.not_eq_true', decide_eq_true_eq] at hc
    unfold group
    rw [if_neg hc.2, hc.1]; rfl
  have key : ∀ {p q : Char → Bool}, v.any p = true → v.any q = true → (∀ c c', p c = true → q c' = true → group c ≠ group c') →
      ∃ c ∈ v, ∃ c' ∈ v, group c ≠ group c' := by
    intro p q hp hq hpq
    obtain ⟨c, hc, hpc⟩ := List.any_eq_true.1 hp
    obtain ⟨c', hc', hqc⟩ := List.any_eq_true.1 hq
    exact ⟨c, hc, c', hc', hpq c c' hpc hqc⟩
  by_cases hw : v.any isWhite = true
  · by_cases hn : (v.any fun c => decide (c = nul)) = true
    · exact key hw hn fun c c' h1 h2 => by rw [hg c h1, hz c' (of_decide_eq_true h2)]; decide
    · by_cases ho : (v.any fun c => !isWhite c && decide (c ≠ nul)) = true
      · exact key hw ho fun c c' h1 h2 => by rw [hg c h1, hr c' h2]; decide
      · rw [if_pos hw, if_neg hn, if_neg ho] at h; omega
  · by_cases hn : (v.any fun c => decide (c = nul)) = true
    · by_cases ho : (v.any fun c => !isWhite c && decide (c ≠ nul)) = true
      · exact key hn ho fun c c' h1 h2 => by rw [hz c (of_decide_eq_true h1), hr c' h2]; decide
      · rw [if_neg hw, if_pos hn, if_neg ho] at h; omega
    · rw [if_neg hw, if_neg hn] at h
      split at h <;> omega

theorem isMixedNull_two {v : Str} (h : isMixedNull v = true) : ∃ c ∈ v, ∃ c' ∈ v, groupNull c ≠ groupNull c' := by
  unfold isMixedNull at h
  rw [Bool.and_eq_true] at h
  obtain ⟨c, hc, h1⟩ := List.any_eq_true.1 h.1
  obtain ⟨c', hc', h2⟩ := List.any_eq_true.1 h.2
  refine ⟨c, hc, c', hc', ?_⟩
  unfold groupNull
  rw [if_pos (of_decide_eq_true h1), if_neg (of_decide_eq_true h2)]
  decide

/-- a part is not mixed in the sense of null characters -/
theorem pieces_unmixed {v p : Str} (hp : p ∈ splitLoop group none [] v) : isMixedNull p = false := by
  cases h : isMixedNull p with
  | false => rfl
  | true =>
    unfold isMixedNull at h
    rw [Bool.and_eq_true] at h
    obtain ⟨c, hc, h1⟩ := List.any_eq_true.1 h.1
    obtain ⟨c', hc', h2⟩ := List.any_eq_true.1 h.2
    have := splitLoop_same group v none [] (by simp) p hp c hc c' hc'
    unfold group at this
    rw [if_pos (of_decide_eq_true h1), if_neg (of_decide_eq_true h2)] at this
    split at this <;> cases this

theorem post_putBack {ps : List Str} {v : Str} (hf : ps.flatten = v) (h2 : 2 ≤ ps.length) (hn : ∀ p ∈ ps, p ≠ []) {s : St} (hs : Good s) :
    ∃ r s', fin (putBack (ps.map .text)) s = some (r, s') ∧ Post (.text v) s r s' ∧ ∃ q, s' = { s with queue := q } :=
  ⟨.done, _, rfl, ⟨⟨Ext.refl _, rfl, id, .inl ⟨rfl, rfl⟩⟩,
    good_same hs s.mode s.original (ps.map HtmlTok.Token.text ++ s.queue) s.switch s.finished s.quirks s.ignoreLf,
    .inr ⟨ps, by rw [hf], rfl, h2, hn⟩, .inr ⟨(by intro h; cases h), rfl⟩⟩, _, rfl⟩

theorem post_splitMixed {v : Str} (h : isMixed v = true) {s : St} (hs : Good s) :
    ∃ r s', fin (putBack (splitMixed v)) s = some (r, s') ∧ Post (.text v) s r s' ∧ ∃ q, s' = { s with queue := q } :=
  post_putBack (splitLoop_flatten group v none []) (splitLoop_two (isMixed_two h)) (splitLoop_nonempty group v none []) hs

theorem okay_splitMixed {P : Mode → Prop} {v : Str} (h : isMixed v = true) : Okay P (.text v) (fin (putBack (splitMixed v))) := fun _ hs _ =>
  let ⟨r, s', h1, h2, _⟩ := post_splitMixed h hs
  ⟨r, s', h1, h2⟩

theorem okay_splitNull {P : Mode → Prop} {v : Str} (h : isMixedNull v = true) : Okay P (.text v) (fin (putBack (splitNull v))) := fun _ hs _ =>
  let ⟨r, s', h1, h2, _⟩ := post_putBack (splitLoop_flatten groupNull v none []) (splitLoop_two (isMixedNull_two h))
    (splitLoop_nonempty groupNull v none []) hs
  ⟨r, s', h1, h2⟩

end Verif.TreeBuild
