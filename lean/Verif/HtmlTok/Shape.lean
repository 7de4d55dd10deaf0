import Verif.HtmlTok.After

/-!
# What every token looks like, whatever the input
-/

namespace Verif.HtmlTok

theorem lower_class {c : Char} (h : isUpper c = true) :
    'a' ≤ toLower c ∧ toLower c ≤ 'z' := by
  have key : ∀ n < 128, isUpper (Char.ofNat n) = true → 'a' ≤ toLower (Char.ofNat n) ∧ toLower (Char.ofNat n) ≤ 'z' := by
    decide +kernel
  have hc : c.toNat < 128 := by
    simp only [isUpper, Bool.and_eq_true, decide_eq_true_eq] at h; omega
  have := key c.toNat hc
  rw [Char.ofNat_toNat] at this
  exact this h

theorem alpha_lower {c : Char} (h : isAlpha c = true) : 'a' ≤ toLower c ∧ toLower c ≤ 'z' := by
  have key : ∀ n < 128, isAlpha (Char.ofNat n) = true → 'a' ≤ toLower (Char.ofNat n) ∧ toLower (Char.ofNat n) ≤ 'z' := by
    decide +kernel
  have hc : c.toNat < 128 := by
    simp only [isAlpha, Bool.or_eq_true, Bool.and_eq_true, decide_eq_true_eq] at h; omega
  have := key c.toNat hc
  rw [Char.ofNat_toNat] at this
  exact this h

theorem nameChar_lower {c : Char} (h : 'a' ≤ c ∧ c ≤ 'z') : NameChar c := by
  have key : ∀ n < 128, ('a' ≤ Char.ofNat n ∧ Char.ofNat n ≤ 'z') → NameChar (Char.ofNat n) := by
    unfold NameChar; decide +kernel
  have hc : c.toNat < 128 := by
    have := h.2
    rw [Char.le_def, UInt32.le_iff_toNat_le] at this
    have h' : ('z' : Char).val.toNat = 122 := by decide
    rw [h'] at this
    show c.val.toNat < 128
    omega
  have := key c.toNat hc
  rw [Char.ofNat_toNat] at this
  exact this h

theorem nameChar_repl : NameChar repl := by unfold NameChar repl; decide +kernel

theorem nameChar_other {c : Char} (h1 : ¬ isWs c = true) (h2 : c ≠ '/') (h3 : c ≠ '>') (h4 : ¬ isUpper c = true)
    (h5 : c ≠ Char.ofNat 0) : NameChar c := by
  refine ⟨?_, h2, h3, h5, ?_⟩
  · simp only [isWs, Bool.or_eq_true, decide_eq_true_eq] at h1
    simp only [List.mem_cons, List.not_mem_nil, or_false]
    tauto
  · rintro ⟨ha, hb⟩
    apply h4
    rw [Char.le_def, UInt32.le_iff_toNat_le] at ha hb
    have e1 : ('A' : Char).val.toNat = 65 := by decide
    have e2 : ('Z' : Char).val.toNat = 90 := by decide
    rw [e1] at ha
    rw [e2] at hb
    simp only [isUpper, Bool.and_eq_true, decide_eq_true_eq]
    exact ⟨ha, hb⟩

/-- a tag's name in the making: empty, or as it must be -/
def Part (n : Str) : Prop := n = [] ∨ TagName n

theorem Part.add {n : Str} {c : Char} (h : Part n) (hc : NameChar c) (h0 : n = [] → 'a' ≤ c ∧ c ≤ 'z') : TagName (n ++ [c]) := by
  rcases h with rfl | ⟨⟨d, hd, hl⟩, hall⟩
  · exact ⟨⟨c, rfl, h0 rfl⟩, by simpa using hc⟩
  · refine ⟨⟨d, ?_, hl⟩, ?_⟩
    · rw [List.head?_append, hd]; rfl
    · intro x hx
      rw [List.mem_append, List.mem_singleton] at hx
      rcases hx with hx | rfl
      · exact hall x hx
      · exact hc

theorem TagName.ne {n : Str} (h : TagName n) : n ≠ [] := by
  rintro rfl
  obtain ⟨⟨_, h, _⟩, _⟩ := h
  simp at h

/-- the token in the making -/
def CurOk : Option Token → Prop
  | some (.startTag n _ a) => Part n ∧ a = []
  | some (.endTag n) => Part n
  | some (.text _) => False
  | some .eof => False
  | _ => True

/-- the tag in the making has a name -/
def Solid : Option Token → Prop
  | some (.startTag n _ _) => n ≠ []
  | some (.endTag n) => n ≠ []
  | _ => True

/-- the token in the making is not a tag -/
def NoTag : Option Token → Prop
  | some (.startTag _ _ _) => False
  | some (.endTag _) => False
  | _ => True

def inName : State → Bool
  | .tagName => true
  | .rcdataEndTagName => true
  | .rawtextEndTagName => true
  | .scriptDataEndTagName => true
  | .scriptDataEscapedEndTagName => true
  | _ => false

def isDoc : State → Bool
  | .doctypeName => true
  | _ => false

theorem isDoc_ne {s : State} (h : isDoc s = false) : s ≠ .doctypeName := by rintro rfl; simp [isDoc] at h

structure Good (t : Tok) : Prop where
  attrs : AttrsOk t.attrs
  name : ∀ c ∈ t.attrName, NameChar c
  cur : CurOk t.cur
  solid : inName t.state = false → Solid t.cur
  start : inName t.state = true → Solid t.cur ∨ ∃ c r, t.rest = c :: r ∧ isAlpha c = true
  doc : t.state = .doctypeName → NoTag t.cur

/-- a step's queue -/
def QueueOk (t : Tok) : Prop :=
  t.queue = [] ∨ (Solid t.cur ∧ ∃ s k, t.queue = (if s = [] then [] else [.text s]) ++ [k] ∧ (∀ x, k ≠ .text x) ∧ TokenOk k)

def Shaped (t : Tok) : Prop := Good t ∧ QueueOk t

theorem NoTag.solid {c : Option Token} (h : NoTag c) : Solid c := by
  unfold NoTag at h
  unfold Solid
  split <;> trivial

theorem shaped_of {t : Tok} (h1 : AttrsOk t.attrs) (h2 : ∀ c ∈ t.attrName, NameChar c) (h3 : CurOk t.cur) (h4 : Solid t.cur)
    (h5 : isDoc t.state = false ∨ NoTag t.cur) (hq : t.queue = []) : Shaped t :=
  ⟨⟨h1, h2, h3, fun _ => h4, fun _ => .inl h4, fun h => by rcases h5 with h5 | h5; exact absurd h (isDoc_ne h5); exact h5⟩, .inl hq⟩

theorem shaped_eof {t : Tok} (h1 : AttrsOk t.attrs) (h2 : ∀ c ∈ t.attrName, NameChar c) (h3 : CurOk t.cur) (h4 : Solid t.cur)
    (h5 : isDoc t.state = false ∨ NoTag t.cur) (hq : t.queue = []) : Shaped (t.emit .eof) := by
  refine ⟨⟨h1, h2, h3, fun _ => h4, fun _ => .inl h4, fun h => by rcases h5 with h5 | h5; exact absurd h (isDoc_ne h5); exact h5⟩, .inr ?_⟩
  exact ⟨h4, t.consumed, .eof, by simp [Tok.emit, hq], by simp, trivial⟩

theorem shaped_emit {t : Tok} {k : Token} (h1 : AttrsOk t.attrs) (h2 : ∀ c ∈ t.attrName, NameChar c) (h3 : CurOk t.cur)
    (h4 : Solid t.cur) (h5 : isDoc t.state = false ∨ NoTag t.cur) (hq : t.queue = []) (hk : ∀ x, k ≠ .text x) (hk' : TokenOk k) :
    Shaped (t.emit k) := by
  refine ⟨⟨h1, h2, h3, fun _ => h4, fun _ => .inl h4, fun h => by rcases h5 with h5 | h5; exact absurd h (isDoc_ne h5); exact h5⟩, .inr ?_⟩
  exact ⟨h4, t.consumed, k, by simp [Tok.emit, hq], hk, hk'⟩

theorem Part.tag {n : Str} (h : Part n) (hs : n ≠ []) : TagName n := h.resolve_left hs

theorem shaped_emitCur {t : Tok} (h1 : AttrsOk t.attrs) (h2 : ∀ c ∈ t.attrName, NameChar c) (h3 : CurOk t.cur) (h4 : Solid t.cur)
    (hq : t.queue = []) : Shaped t.emitCur := by
  unfold Tok.emitCur
  cases hc : t.cur with
  | none =>
    exact shaped_of h1 h2 h3 h4 (.inr (by rw [hc]; trivial)) hq
  | some k =>
    rw [hc] at h3 h4
    refine shaped_emit (t := { t with cur := none }) h1 h2 trivial trivial (.inr trivial) hq ?_ ?_
    · rintro x rfl; exact h3
    · cases k with
      | startTag n sc a =>
        obtain ⟨h3, rfl⟩ := h3
        exact ⟨h3.tag h4, by simp, by simp⟩
      | endTag n => exact Part.tag h3 h4
      | text => exact h3.elim
      | _ => trivial

/-- the state and the name of the last start tag do not matter to what is emitted -/
theorem Shaped.set {t : Tok} (h : Shaped t) (s : State) (l : Str) (hn : Solid t.cur) (hs : s ≠ .doctypeName) :
    Shaped { t with state := s, lastStart := l } :=
  ⟨⟨h.1.attrs, h.1.name, h.1.cur, fun _ => hn, fun _ => .inl hn, fun h => absurd h hs⟩, h.2⟩

theorem Shaped.last {t : Tok} (h : Shaped t) (l : Str) : Shaped { t with lastStart := l } :=
  ⟨⟨h.1.attrs, h.1.name, h.1.cur, h.1.solid, h.1.start, h.1.doc⟩, h.2⟩

theorem emitCur_cur (t : Tok) : t.emitCur.cur = none := by
  unfold Tok.emitCur
  split
  · rfl
  · assumption

theorem shaped_emitCur_data {t : Tok} {l : Str} (h1 : AttrsOk t.attrs) (h2 : ∀ c ∈ t.attrName, NameChar c) (h3 : CurOk t.cur)
    (h4 : Solid t.cur) (hq : t.queue = []) : Shaped { t.emitCur with state := .data, lastStart := l } :=
  (shaped_emitCur h1 h2 h3 h4 hq).set .data l (by rw [emitCur_cur]; trivial) (by decide)

theorem store_ok {t : Tok} (h1 : AttrsOk t.attrs) (h2 : ∀ c ∈ t.attrName, NameChar c) : AttrsOk t.storeAttr.attrs := by
  simp only [Tok.storeAttr]
  split_ifs with h
  · obtain ⟨h, h'⟩ := h
    refine ⟨?_, ?_⟩
    · rw [List.map_append, List.nodup_append]
      refine ⟨h1.1, by simp, ?_⟩
      intro a ha b hb
      simp only [List.map_cons, List.map_nil, List.mem_singleton] at hb
      subst hb
      rintro rfl
      exact h' ha
    · intro a ha
      rw [List.mem_append, List.mem_singleton] at ha
      rcases ha with ha | rfl
      · exact h1.2 a ha
      · exact ⟨h, h2⟩
  · exact h1

theorem shaped_finish {t : Tok} (h1 : AttrsOk t.attrs) (h2 : ∀ c ∈ t.attrName, NameChar c) (h3 : CurOk t.cur) (h4 : Solid t.cur)
    (hq : t.queue = []) : Shaped t.finishTag := by
  have hs := store_ok h1 h2
  unfold Tok.finishTag Tok.addStored
  split_ifs with ha
  · exact shaped_emitCur hs (by simp [Tok.storeAttr]) h3 h4 hq
  · have hcur : t.storeAttr.cur = t.cur := rfl
    split
    · rename_i n sc a hc
      rw [hcur] at hc
      rw [hc] at h3 h4
      obtain ⟨h3, rfl⟩ := h3
      unfold Tok.emitCur
      refine shaped_emit (t := { t.storeAttr with attrs := [], cur := none }) ⟨by simp, by simp⟩ (by simp [Tok.storeAttr]) trivial trivial
        (.inr trivial) hq (by simp) ?_
      exact ⟨h3.tag h4, by simpa using hs.1, by simpa using hs.2⟩
    · exact shaped_emitCur hs (by simp [Tok.storeAttr]) h3 h4 hq

/-! ## the helpers on the token in the making -/

def Tok.same (t t' : Tok) : Prop :=
  t'.attrs = t.attrs ∧ t'.attrName = t.attrName ∧ (CurOk t.cur → CurOk t'.cur) ∧ (Solid t.cur → Solid t'.cur) ∧
    t'.queue = t.queue ∧ t'.state = t.state

theorem same_addValue (t : Tok) (s : Str) : t.same (t.addValue s) := by
  unfold Tok.addValue; split <;> simp_all [Tok.same, CurOk, Solid]
theorem same_setPub (t : Tok) : t.same t.setPub := by
  unfold Tok.setPub; split <;> simp_all [Tok.same, CurOk, Solid]
theorem same_addPub (t : Tok) (c : Char) : t.same (t.addPub c) := by
  unfold Tok.addPub; split <;> simp_all [Tok.same, CurOk, Solid]
theorem same_setSys (t : Tok) : t.same t.setSys := by
  unfold Tok.setSys; split <;> simp_all [Tok.same, CurOk, Solid]
theorem same_addSys (t : Tok) (c : Char) : t.same (t.addSys c) := by
  unfold Tok.addSys; split <;> simp_all [Tok.same, CurOk, Solid]
theorem same_setQuirks (t : Tok) : t.same t.setQuirks := by
  unfold Tok.setQuirks; split <;> simp_all [Tok.same, CurOk, Solid]
theorem same_setSelfClosing (t : Tok) : t.same t.setSelfClosing := by
  unfold Tok.setSelfClosing; split <;> simp_all [Tok.same, CurOk, Solid]

theorem shaped_same {t t' u : Tok} (hs : t.same t') (h1 : AttrsOk t.attrs) (h2 : ∀ c ∈ t.attrName, NameChar c) (h3 : CurOk t.cur)
    (h4 : Solid t.cur) (hq : t.queue = []) (e1 : u.attrs = t'.attrs) (e2 : u.attrName = t'.attrName) (e3 : u.cur = t'.cur)
    (e4 : u.queue = t'.queue) (e5 : isDoc u.state = false) : Shaped u := by
  obtain ⟨a, b, c, d, e, _⟩ := hs
  exact shaped_of (by rw [e1, a]; exact h1) (by rw [e2, b]; exact h2) (by rw [e3]; exact c h3) (by rw [e3]; exact d h4) (.inl e5)
    (by rw [e4, e, hq])

theorem shaped_same' {t t' u : Tok} (hs : t.same t') (h1 : AttrsOk t.attrs) (h2 : ∀ c ∈ t.attrName, NameChar c) (h3 : CurOk t.cur)
    (h4 : Solid t.cur) (hq : t.queue = []) (e1 : u.attrs = t'.attrs) (e2 : u.attrName = t'.attrName) (e3 : u.cur = t'.cur)
    (e4 : u.queue = t'.queue) (e5 : u.state = t'.state) (e6 : isDoc t.state = false) : Shaped u :=
  shaped_same hs h1 h2 h3 h4 hq e1 e2 e3 e4 (by rw [e5, hs.2.2.2.2.2]; exact e6)

theorem shaped_broken {t : Tok} (h1 : AttrsOk t.attrs) (h2 : ∀ c ∈ t.attrName, NameChar c) (h3 : CurOk t.cur)
    (h4 : Solid t.cur) (hq : t.queue = []) : Shaped t.brokenDoctype := by
  obtain ⟨a, b, c, d, e, _⟩ := same_setQuirks t
  exact shaped_emitCur_data (by rw [a]; exact h1) (by rw [b]; exact h2) (c h3) (d h4) (by rw [e, hq])

theorem shaped_nameless {t : Tok} (h1 : AttrsOk t.attrs) (h2 : ∀ c ∈ t.attrName, NameChar c) (h3 : CurOk t.cur)
    (h4 : Solid t.cur) (hq : t.queue = []) : Shaped t.namelessDoctype := by
  refine Shaped.set (t := { t with state := .data }.emit (.doctype none true none none))
    (shaped_emit (t := { t with state := .data }) h1 h2 h3 h4 (.inl rfl) hq (by simp)
      (by trivial)) .data _ h4 (by simp)

theorem shaped_selfClosing {t : Tok} {r : Str} (h1 : AttrsOk t.attrs) (h2 : ∀ c ∈ t.attrName, NameChar c) (h3 : CurOk t.cur)
    (h4 : Solid t.cur) (hq : t.queue = []) : Shaped (t.setSelfClosing.adv r .data).finishTag := by
  obtain ⟨a, b, c, d, e, _⟩ := same_setSelfClosing t
  exact shaped_finish (t := t.setSelfClosing.adv r .data) (by rw [← a] at h1; exact h1) (by rw [← b] at h2; exact h2) (c h3) (d h4)
    (by rw [← e] at hq; exact hq)

/-! ## every state -/

def Shapes (env : Env) (s : State) : Prop := ∀ (f : Bool) (t : Tok), t.queue = [] → t.state = s → Good t → Shaped (step env f t)

set_option hygiene false in
macro "sh_start" : tactic => `(tactic| (
  rintro f ⟨rest, s, consumed, an, av, as, cur, tmp, queue, ls⟩ hq hs hg
  simp only at hq hs
  subst hq hs
  have h1 : AttrsOk as := hg.attrs
  have h2 : ∀ c ∈ an, NameChar c := hg.name
  have h3 : CurOk cur := hg.cur))

set_option hygiene false in
macro "sh_fin" : tactic => `(tactic| first
  | exact shaped_eof h1 h2 h3 h4 (.inl rfl) rfl
  | exact shaped_of h1 h2 h3 h4 (.inl rfl) rfl
  | exact shaped_emitCur h1 h2 h3 h4 rfl
  | exact shaped_finish h1 h2 h3 h4 rfl
  | exact shaped_selfClosing (t := ⟨_, _, _, _, _, _, _, _, _, _⟩) h1 h2 h3 h4 rfl
  | exact shaped_broken h1 h2 h3 h4 rfl
  | exact shaped_nameless h1 h2 h3 h4 rfl
  | exact shaped_emitCur_data h1 h2 h3 h4 rfl
  | exact shaped_same (same_addValue ⟨_, _, _, _, _, _, _, _, _, _⟩ _) h1 h2 h3 h4 rfl rfl rfl rfl rfl rfl
  | exact shaped_same' (same_addValue ⟨_, _, _, _, _, _, _, _, _, _⟩ _) h1 h2 h3 h4 rfl rfl rfl rfl rfl rfl rfl
  | exact shaped_same (same_setPub ⟨_, _, _, _, _, _, _, _, _, _⟩) h1 h2 h3 h4 rfl rfl rfl rfl rfl rfl
  | exact shaped_same' (same_setPub ⟨_, _, _, _, _, _, _, _, _, _⟩) h1 h2 h3 h4 rfl rfl rfl rfl rfl rfl rfl
  | exact shaped_same (same_setSys ⟨_, _, _, _, _, _, _, _, _, _⟩) h1 h2 h3 h4 rfl rfl rfl rfl rfl rfl
  | exact shaped_same' (same_setSys ⟨_, _, _, _, _, _, _, _, _, _⟩) h1 h2 h3 h4 rfl rfl rfl rfl rfl rfl rfl
  | exact shaped_same (same_setQuirks ⟨_, _, _, _, _, _, _, _, _, _⟩) h1 h2 h3 h4 rfl rfl rfl rfl rfl rfl
  | exact shaped_same' (same_setQuirks ⟨_, _, _, _, _, _, _, _, _, _⟩) h1 h2 h3 h4 rfl rfl rfl rfl rfl rfl rfl
  | exact shaped_same (same_addPub ⟨_, _, _, _, _, _, _, _, _, _⟩ _) h1 h2 h3 h4 rfl rfl rfl rfl rfl rfl
  | exact shaped_same' (same_addPub ⟨_, _, _, _, _, _, _, _, _, _⟩ _) h1 h2 h3 h4 rfl rfl rfl rfl rfl rfl rfl
  | exact shaped_same (same_addSys ⟨_, _, _, _, _, _, _, _, _, _⟩ _) h1 h2 h3 h4 rfl rfl rfl rfl rfl rfl
  | exact shaped_same' (same_addSys ⟨_, _, _, _, _, _, _, _, _, _⟩ _) h1 h2 h3 h4 rfl rfl rfl rfl rfl rfl rfl
  )

set_option hygiene false in
macro "sh_simple" : tactic => `(tactic| (
  sh_start
  have h4 : Solid cur := hg.solid rfl
  simp only [step]
  try simp only [Tok.doctypeId, Tok.transitionTo]
  cases rest with
  | nil => dsimp only; sh_fin
  | cons c r => dsimp only; split_ifs <;> sh_fin))

variable (env : Env)

theorem shapes_afterAttributeValueQuoted : Shapes env .afterAttributeValueQuoted := by sh_simple
theorem shapes_afterDoctypePublicIdentifier : Shapes env .afterDoctypePublicIdentifier := by sh_simple
theorem shapes_afterDoctypePublicKeyword : Shapes env .afterDoctypePublicKeyword := by sh_simple
theorem shapes_afterDoctypeSystemIdentifier : Shapes env .afterDoctypeSystemIdentifier := by sh_simple
theorem shapes_afterDoctypeSystemKeyword : Shapes env .afterDoctypeSystemKeyword := by sh_simple
theorem shapes_attributeValueDoubleQuoted : Shapes env .attributeValueDoubleQuoted := by sh_simple
theorem shapes_attributeValueSingleQuoted : Shapes env .attributeValueSingleQuoted := by sh_simple
theorem shapes_attributeValueUnquoted : Shapes env .attributeValueUnquoted := by sh_simple
theorem shapes_beforeAttributeValue : Shapes env .beforeAttributeValue := by sh_simple
theorem shapes_beforeDoctypePublicIdentifier : Shapes env .beforeDoctypePublicIdentifier := by sh_simple
theorem shapes_beforeDoctypeSystemIdentifier : Shapes env .beforeDoctypeSystemIdentifier := by sh_simple
theorem shapes_betweenDoctypePublicAndSystemIdentifiers : Shapes env .betweenDoctypePublicAndSystemIdentifiers := by sh_simple
theorem shapes_bogusComment : Shapes env .bogusComment := by sh_simple
theorem shapes_bogusDoctype : Shapes env .bogusDoctype := by sh_simple
theorem shapes_cdataSection : Shapes env .cdataSection := by sh_simple
theorem shapes_cdataSectionBracket : Shapes env .cdataSectionBracket := by sh_simple
theorem shapes_cdataSectionEnd : Shapes env .cdataSectionEnd := by sh_simple
theorem shapes_comment : Shapes env .comment := by sh_simple
theorem shapes_commentEnd : Shapes env .commentEnd := by sh_simple
theorem shapes_commentEndBang : Shapes env .commentEndBang := by sh_simple
theorem shapes_commentEndDash : Shapes env .commentEndDash := by sh_simple
theorem shapes_commentLessThanSign : Shapes env .commentLessThanSign := by sh_simple
theorem shapes_commentLessThanSignBang : Shapes env .commentLessThanSignBang := by sh_simple
theorem shapes_commentLessThanSignBangDash : Shapes env .commentLessThanSignBangDash := by sh_simple
theorem shapes_commentStart : Shapes env .commentStart := by sh_simple
theorem shapes_commentStartDash : Shapes env .commentStartDash := by sh_simple
theorem shapes_data : Shapes env .data := by sh_simple
theorem shapes_doctype : Shapes env .doctype := by sh_simple
theorem shapes_doctypePublicIdentifierDoubleQuoted : Shapes env .doctypePublicIdentifierDoubleQuoted := by sh_simple
theorem shapes_doctypePublicIdentifierSingleQuoted : Shapes env .doctypePublicIdentifierSingleQuoted := by sh_simple
theorem shapes_doctypeSystemIdentifierDoubleQuoted : Shapes env .doctypeSystemIdentifierDoubleQuoted := by sh_simple
theorem shapes_doctypeSystemIdentifierSingleQuoted : Shapes env .doctypeSystemIdentifierSingleQuoted := by sh_simple
theorem shapes_plaintext : Shapes env .plaintext := by sh_simple
theorem shapes_rawtext : Shapes env .rawtext := by sh_simple
theorem shapes_rawtextLessThanSign : Shapes env .rawtextLessThanSign := by sh_simple
theorem shapes_rcdata : Shapes env .rcdata := by sh_simple
theorem shapes_rcdataLessThanSign : Shapes env .rcdataLessThanSign := by sh_simple
theorem shapes_scriptData : Shapes env .scriptData := by sh_simple
theorem shapes_scriptDataDoubleEscaped : Shapes env .scriptDataDoubleEscaped := by sh_simple
theorem shapes_scriptDataDoubleEscapedDash : Shapes env .scriptDataDoubleEscapedDash := by sh_simple
theorem shapes_scriptDataDoubleEscapedDashDash : Shapes env .scriptDataDoubleEscapedDashDash := by sh_simple
theorem shapes_scriptDataDoubleEscapedLessThanSign : Shapes env .scriptDataDoubleEscapedLessThanSign := by sh_simple
theorem shapes_scriptDataDoubleEscapeEnd : Shapes env .scriptDataDoubleEscapeEnd := by sh_simple
theorem shapes_scriptDataDoubleEscapeStart : Shapes env .scriptDataDoubleEscapeStart := by sh_simple
theorem shapes_scriptDataEscaped : Shapes env .scriptDataEscaped := by sh_simple
theorem shapes_scriptDataEscapedDash : Shapes env .scriptDataEscapedDash := by sh_simple
theorem shapes_scriptDataEscapedDashDash : Shapes env .scriptDataEscapedDashDash := by sh_simple
theorem shapes_scriptDataEscapedLessThanSign : Shapes env .scriptDataEscapedLessThanSign := by sh_simple
theorem shapes_scriptDataEscapeStart : Shapes env .scriptDataEscapeStart := by sh_simple
theorem shapes_scriptDataEscapeStartDash : Shapes env .scriptDataEscapeStartDash := by sh_simple
theorem shapes_scriptDataLessThanSign : Shapes env .scriptDataLessThanSign := by sh_simple
theorem shapes_selfClosingStart : Shapes env .selfClosingStart := by sh_simple

theorem shapes_commentLessThanSignBangDashDash : Shapes env .commentLessThanSignBangDashDash := by
  sh_start
  have h4 : Solid cur := hg.solid rfl
  simp only [step]
  sh_fin

theorem shapes_characterReferenceInAttributeValue : Shapes env .characterReferenceInAttributeValue := by
  sh_start
  have h4 : Solid cur := hg.solid rfl
  simp only [step]
  sh_fin

theorem shapes_characterReferenceInData : Shapes env .characterReferenceInData := by
  sh_start
  have h4 : Solid cur := hg.solid rfl
  exact shaped_of h1 h2 h3 h4 (.inl rfl) rfl

theorem shapes_characterReferenceInRcData : Shapes env .characterReferenceInRcData := by
  sh_start
  have h4 : Solid cur := hg.solid rfl
  exact shaped_of h1 h2 h3 h4 (.inl rfl) rfl

theorem shapes_afterDoctypeName : Shapes env .afterDoctypeName := by
  sh_start
  have h4 : Solid cur := hg.solid rfl
  simp only [step, Tok.afterDoctypeNameKeyword]
  cases rest with
  | nil => dsimp only; sh_fin
  | cons c r => dsimp only; split_ifs <;> sh_fin

theorem shapes_markupDeclarationOpen : Shapes env .markupDeclarationOpen := by
  sh_start
  have h4 : Solid cur := hg.solid rfl
  simp only [step, Tok.markupDeclaration]
  split_ifs <;> first | sh_fin | exact shaped_of h1 h2 (by trivial) (by trivial) (.inl rfl) rfl

/-- a tag is begun -/
theorem shaped_new {t : Tok} {c : Char} {r : Str} (h1 : AttrsOk t.attrs) (h2 : ∀ c ∈ t.attrName, NameChar c) (h3 : CurOk t.cur)
    (hn : inName t.state = true) (hr : t.rest = c :: r) (hc : isAlpha c = true) (hq : t.queue = []) : Shaped t :=
  ⟨⟨h1, h2, h3, fun h => by rw [hn] at h; simp at h, fun _ => .inr ⟨c, r, hr, hc⟩, fun h => by rw [h] at hn; simp [inName] at hn⟩,
    .inl hq⟩

set_option hygiene false in
macro "sh_open" : tactic => `(tactic| (
  sh_start
  have h4 : Solid cur := hg.solid rfl
  simp only [step]
  try simp only [Tok.endTagOpenIn]
  cases rest with
  | nil => dsimp only; sh_fin
  | cons c r =>
    dsimp only
    split_ifs
    all_goals first
      | sh_fin
      | exact shaped_of h1 h2 (by trivial) (by trivial) (.inl rfl) rfl
      | exact shaped_new h1 h2 ⟨.inl rfl, rfl⟩ rfl rfl (by assumption) rfl
      | exact shaped_new h1 h2 (.inl rfl) rfl rfl (by assumption) rfl))

theorem shapes_tagOpen : Shapes env .tagOpen := by sh_open
theorem shapes_endTagOpen : Shapes env .endTagOpen := by sh_open
theorem shapes_rcdataEndTagOpen : Shapes env .rcdataEndTagOpen := by sh_open
theorem shapes_rawtextEndTagOpen : Shapes env .rawtextEndTagOpen := by sh_open
theorem shapes_scriptDataEscapedEndTagOpen : Shapes env .scriptDataEscapedEndTagOpen := by sh_open

theorem shapes_scriptDataEndTagOpen : Shapes env .scriptDataEndTagOpen := by
  sh_start
  have h4 : Solid cur := hg.solid rfl
  simp only [step]
  cases rest with
  | nil => dsimp only; sh_fin
  | cons c r =>
    dsimp only
    split_ifs with a1
    · have hl := alpha_lower a1
      exact shaped_of (t := ⟨_, _, _, _, _, _, _, _, _, _⟩) h1 h2
        (.inr ⟨⟨toLower c, rfl, hl⟩, by simpa using nameChar_lower hl⟩) (by simp [Solid]) (.inl rfl) rfl
    · sh_fin

theorem addName_ok {t : Tok} {c : Char} (h3 : CurOk t.cur) (hc : NameChar c) (h : Solid t.cur ∨ ('a' ≤ c ∧ c ≤ 'z')) :
    CurOk (t.addName c).cur ∧ Solid (t.addName c).cur := by
  unfold Tok.addName
  cases hcur : t.cur with
  | none => simp [CurOk, Solid, hcur]
  | some k =>
    rw [hcur] at h3 h
    cases k with
    | startTag n sc a =>
      refine ⟨⟨.inr (h3.1.add hc fun h0 => ?_), h3.2⟩, by simp [Solid]⟩
      exact h.resolve_left (fun hs => hs h0)
    | endTag n =>
      refine ⟨.inr (Part.add h3 hc fun h0 => ?_), by simp [Solid]⟩
      exact h.resolve_left (fun hs => hs h0)
    | doctype n q p s => cases n <;> simp [CurOk, Solid]
    | comment => simp [CurOk, Solid, hcur]
    | text => exact h3.elim
    | eof => exact h3.elim

@[simp] theorem addName_attrs (t : Tok) (c : Char) : (t.addName c).attrs = t.attrs := by unfold Tok.addName; split <;> rfl
@[simp] theorem addName_attrName (t : Tok) (c : Char) : (t.addName c).attrName = t.attrName := by unfold Tok.addName; split <;> rfl
@[simp] theorem addName_state (t : Tok) (c : Char) : (t.addName c).state = t.state := by unfold Tok.addName; split <;> rfl

theorem shaped_addName {t u : Tok} {c : Char} (h1 : AttrsOk t.attrs) (h2 : ∀ c ∈ t.attrName, NameChar c) (h3 : CurOk t.cur)
    (hq : t.queue = []) (hc : NameChar c) (h : Solid t.cur ∨ ('a' ≤ c ∧ c ≤ 'z')) (e1 : u.attrs = (t.addName c).attrs)
    (e2 : u.attrName = (t.addName c).attrName) (e3 : u.cur = (t.addName c).cur) (e4 : u.queue = (t.addName c).queue)
    (e5 : isDoc u.state = false) : Shaped u := by
  obtain ⟨a, b⟩ := addName_ok h3 hc h
  exact shaped_of (by rw [e1, addName_attrs]; exact h1) (by rw [e2, addName_attrName]; exact h2) (by rw [e3]; exact a)
    (by rw [e3]; exact b) (.inl e5) (by rw [e4, addName_queue, hq])

theorem alpha_not_ws {c : Char} (h : isAlpha c = true) : isWs c = false ∧ c ≠ '/' ∧ c ≠ '>' ∧ c ≠ Char.ofNat 0 ∧
    (isUpper c = false → 'a' ≤ c ∧ c ≤ 'z') := by
  have key : ∀ n < 128, isAlpha (Char.ofNat n) = true → isWs (Char.ofNat n) = false ∧ Char.ofNat n ≠ '/' ∧ Char.ofNat n ≠ '>' ∧
      Char.ofNat n ≠ Char.ofNat 0 ∧ (isUpper (Char.ofNat n) = false → 'a' ≤ Char.ofNat n ∧ Char.ofNat n ≤ 'z') := by
    decide +kernel
  have hc : c.toNat < 128 := by
    simp only [isAlpha, Bool.or_eq_true, Bool.and_eq_true, decide_eq_true_eq] at h; omega
  have := key c.toNat hc
  rw [Char.ofNat_toNat] at this
  exact this h

theorem shapes_tagName : Shapes env .tagName := by
  sh_start
  have hst : Solid cur ∨ ∃ c r, rest = c :: r ∧ isAlpha c = true := hg.start rfl
  simp only [step]
  cases rest with
  | nil =>
    have h4 : Solid cur := by simpa using hst
    dsimp only; sh_fin
  | cons c r =>
    have hst' : Solid cur ∨ isAlpha c = true := by
      rcases hst with h | ⟨c', r', h, h'⟩
      · exact .inl h
      · simp only [List.cons.injEq] at h; rw [h.1]; exact .inr h'
    dsimp only
    split_ifs with a1 a2 a3 a4 a5
    · have h4 : Solid cur := hst'.resolve_right fun h => by simp [(alpha_not_ws h).1] at a1
      sh_fin
    · have h4 : Solid cur := hst'.resolve_right fun h => (alpha_not_ws h).2.1 a2
      sh_fin
    · have h4 : Solid cur := hst'.resolve_right fun h => (alpha_not_ws h).2.2.1 a3
      sh_fin
    · exact shaped_addName (t := ⟨_, _, _, _, _, _, _, _, _, _⟩) h1 h2 h3 rfl (nameChar_lower (lower_class a4))
        (.inr (lower_class a4)) rfl rfl rfl rfl (by simp [isDoc])
    · have h4 : Solid cur := hst'.resolve_right fun h => (alpha_not_ws h).2.2.2.1 a5
      exact shaped_addName (t := ⟨_, _, _, _, _, _, _, _, _, _⟩) h1 h2 h3 rfl nameChar_repl (.inl h4) rfl rfl rfl rfl
        (by simp [isDoc])
    · exact shaped_addName (t := ⟨_, _, _, _, _, _, _, _, _, _⟩) h1 h2 h3 rfl (nameChar_other a1 a2 a3 a4 a5)
        (hst'.imp id fun h => (alpha_not_ws h).2.2.2.2 (by simpa using a4)) rfl rfl rfl rfl (by simp [isDoc])

set_option hygiene false in
macro "sh_name" : tactic => `(tactic| (
  sh_start
  have hst : Solid cur ∨ ∃ c r, rest = c :: r ∧ isAlpha c = true := hg.start rfl
  simp only [step, Tok.endTagNameIn, Tok.transitionTo]
  cases rest with
  | nil =>
    have h4 : Solid cur := by simpa using hst
    dsimp only; sh_fin
  | cons c r =>
    have hst' : Solid cur ∨ isAlpha c = true := by
      rcases hst with h | ⟨c', r', h, h'⟩
      · exact .inl h
      · simp only [List.cons.injEq] at h; rw [h.1]; exact .inr h'
    dsimp only
    by_cases ha : isAlpha c = true
    · obtain ⟨b1, b2, b3, b4, b5⟩ := alpha_not_ws ha
      rw [if_neg (by simp [b1]), if_neg b2, if_neg b3, if_pos ha]
      exact shaped_addName (t := ⟨_, _, _, _, _, _, _, _, _, _⟩) h1 h2 h3 rfl (nameChar_lower (alpha_lower ha))
        (.inr (alpha_lower ha)) rfl rfl rfl rfl (by simp [isDoc])
    · have h4 : Solid cur := hst'.resolve_right ha
      split_ifs <;> first | sh_fin | exact (shaped_emitCur h1 h2 h3 h4 rfl).last _))

theorem shapes_rcdataEndTagName : Shapes env .rcdataEndTagName := by sh_name
theorem shapes_rawtextEndTagName : Shapes env .rawtextEndTagName := by sh_name
theorem shapes_scriptDataEndTagName : Shapes env .scriptDataEndTagName := by sh_name
theorem shapes_scriptDataEscapedEndTagName : Shapes env .scriptDataEscapedEndTagName := by sh_name

theorem addName_noTag {t : Tok} {c : Char} (h3 : CurOk t.cur) (h : NoTag t.cur) : CurOk (t.addName c).cur ∧ NoTag (t.addName c).cur := by
  unfold Tok.addName
  cases hcur : t.cur with
  | none => simp [CurOk, NoTag, hcur]
  | some k =>
    rw [hcur] at h3 h
    cases k with
    | startTag n sc a => exact h.elim
    | endTag n => exact h.elim
    | doctype n q p s => cases n <;> simp [CurOk, NoTag]
    | comment => simp [CurOk, NoTag, hcur]
    | text => exact h3.elim
    | eof => exact h3.elim

theorem shaped_docName {t u : Tok} {c : Char} (h1 : AttrsOk t.attrs) (h2 : ∀ c ∈ t.attrName, NameChar c) (h3 : CurOk t.cur)
    (hq : t.queue = []) (h : NoTag t.cur) (e1 : u.attrs = (t.addName c).attrs)
    (e2 : u.attrName = (t.addName c).attrName) (e3 : u.cur = (t.addName c).cur) (e4 : u.queue = (t.addName c).queue) : Shaped u := by
  obtain ⟨a, b⟩ := addName_noTag (c := c) h3 h
  exact shaped_of (by rw [e1, addName_attrs]; exact h1) (by rw [e2, addName_attrName]; exact h2) (by rw [e3]; exact a)
    (by rw [e3]; exact b.solid) (.inr (by rw [e3]; exact b)) (by rw [e4, addName_queue, hq])

theorem shapes_doctypeName : Shapes env .doctypeName := by
  sh_start
  have h4 : Solid cur := hg.solid rfl
  have h5 : NoTag cur := hg.doc rfl
  simp only [step]
  cases rest with
  | nil => dsimp only; sh_fin
  | cons c r =>
    dsimp only
    split_ifs
    all_goals first
      | sh_fin
      | exact shaped_docName (t := ⟨_, _, _, _, _, _, _, _, _, _⟩) h1 h2 h3 rfl h5 rfl rfl rfl rfl

theorem shapes_beforeDoctypeName : Shapes env .beforeDoctypeName := by
  sh_start
  have h4 : Solid cur := hg.solid rfl
  simp only [step, Tok.startDoctype]
  cases rest with
  | nil => dsimp only; sh_fin
  | cons c r =>
    dsimp only
    split_ifs
    all_goals first
      | sh_fin
      | exact shaped_docName (t := ⟨_, _, _, _, _, _, some (.doctype none false none none), _, _, _⟩) h1 h2 trivial rfl trivial rfl rfl rfl rfl

theorem shaped_store {t u : Tok} (h1 : AttrsOk t.attrs) (h2 : ∀ c ∈ t.attrName, NameChar c) (h3 : CurOk t.cur) (h4 : Solid t.cur)
    (hq : t.queue = []) (e1 : u.attrs = t.storeAttr.attrs) (e2 : ∀ c ∈ u.attrName, NameChar c) (e3 : u.cur = t.cur)
    (e4 : u.queue = t.queue) (e5 : isDoc u.state = false) : Shaped u :=
  shaped_of (by rw [e1]; exact store_ok h1 h2) e2 (by rw [e3]; exact h3) (by rw [e3]; exact h4) (.inl e5) (by rw [e4, hq])

theorem nameChar_eq : NameChar '=' := by unfold NameChar; decide

theorem shapes_beforeAttributeName : Shapes env .beforeAttributeName := by
  sh_start
  have h4 : Solid cur := hg.solid rfl
  simp only [step]
  cases rest with
  | nil => dsimp only; sh_fin
  | cons c r =>
    dsimp only
    split_ifs with a1 a2 a3
    · sh_fin
    · sh_fin
    · subst a3
      exact shaped_store (t := ⟨_, _, _, _, _, _, _, _, _, _⟩) h1 h2 h3 h4 rfl rfl (by simpa using nameChar_eq) rfl rfl rfl
    · exact shaped_store (t := ⟨_, _, _, _, _, _, _, _, _, _⟩) h1 h2 h3 h4 rfl rfl (by simp [Tok.storeAttr, Tok.goto]) rfl rfl rfl

theorem shapes_afterAttributeName : Shapes env .afterAttributeName := by
  sh_start
  have h4 : Solid cur := hg.solid rfl
  simp only [step]
  cases rest with
  | nil => dsimp only; sh_fin
  | cons c r =>
    dsimp only
    split_ifs
    all_goals first
      | sh_fin
      | exact shaped_store (t := ⟨_, _, _, _, _, _, _, _, _, _⟩) h1 h2 h3 h4 rfl rfl (by simp [Tok.storeAttr, Tok.goto]) rfl rfl rfl

theorem name_add {an : Str} {c : Char} (h2 : ∀ c ∈ an, NameChar c) (h : NameChar c) : ∀ x ∈ an ++ [c], NameChar x := by
  intro x hx
  rw [List.mem_append, List.mem_singleton] at hx
  rcases hx with hx | rfl
  · exact h2 x hx
  · exact h

theorem shapes_attributeName : Shapes env .attributeName := by
  sh_start
  have h4 : Solid cur := hg.solid rfl
  simp only [step]
  cases rest with
  | nil => dsimp only; sh_fin
  | cons c r =>
    dsimp only
    split_ifs with a1 a2 a3 a4
    · sh_fin
    · sh_fin
    · exact shaped_of h1 (name_add h2 (nameChar_lower (lower_class a3))) h3 h4 (.inl rfl) rfl
    · exact shaped_of h1 (name_add h2 nameChar_repl) h3 h4 (.inl rfl) rfl
    · simp only [Bool.or_eq_true, decide_eq_true_eq, not_or] at a1
      exact shaped_of h1 (name_add h2 (nameChar_other a1.1.1 a1.1.2 a1.2 a3 a4)) h3 h4 (.inl rfl) rfl

theorem step_shape (s : State) : Shapes env s := by
  cases s with
  | afterAttributeName => exact shapes_afterAttributeName env
  | afterAttributeValueQuoted => exact shapes_afterAttributeValueQuoted env
  | afterDoctypeName => exact shapes_afterDoctypeName env
  | afterDoctypePublicIdentifier => exact shapes_afterDoctypePublicIdentifier env
  | afterDoctypePublicKeyword => exact shapes_afterDoctypePublicKeyword env
  | afterDoctypeSystemIdentifier => exact shapes_afterDoctypeSystemIdentifier env
  | afterDoctypeSystemKeyword => exact shapes_afterDoctypeSystemKeyword env
  | attributeName => exact shapes_attributeName env
  | attributeValueDoubleQuoted => exact shapes_attributeValueDoubleQuoted env
  | attributeValueSingleQuoted => exact shapes_attributeValueSingleQuoted env
  | attributeValueUnquoted => exact shapes_attributeValueUnquoted env
  | beforeAttributeName => exact shapes_beforeAttributeName env
  | beforeAttributeValue => exact shapes_beforeAttributeValue env
  | beforeDoctypeName => exact shapes_beforeDoctypeName env
  | beforeDoctypePublicIdentifier => exact shapes_beforeDoctypePublicIdentifier env
  | beforeDoctypeSystemIdentifier => exact shapes_beforeDoctypeSystemIdentifier env
  | betweenDoctypePublicAndSystemIdentifiers => exact shapes_betweenDoctypePublicAndSystemIdentifiers env
  | bogusComment => exact shapes_bogusComment env
  | bogusDoctype => exact shapes_bogusDoctype env
  | cdataSection => exact shapes_cdataSection env
  | cdataSectionBracket => exact shapes_cdataSectionBracket env
  | cdataSectionEnd => exact shapes_cdataSectionEnd env
  | characterReferenceInAttributeValue => exact shapes_characterReferenceInAttributeValue env
  | characterReferenceInData => exact shapes_characterReferenceInData env
  | characterReferenceInRcData => exact shapes_characterReferenceInRcData env
  | comment => exact shapes_comment env
  | commentEnd => exact shapes_commentEnd env
  | commentEndBang => exact shapes_commentEndBang env
  | commentEndDash => exact shapes_commentEndDash env
  | commentLessThanSign => exact shapes_commentLessThanSign env
  | commentLessThanSignBang => exact shapes_commentLessThanSignBang env
  | commentLessThanSignBangDash => exact shapes_commentLessThanSignBangDash env
  | commentLessThanSignBangDashDash => exact shapes_commentLessThanSignBangDashDash env
  | commentStart => exact shapes_commentStart env
  | commentStartDash => exact shapes_commentStartDash env
  | data => exact shapes_data env
  | doctype => exact shapes_doctype env
  | doctypeName => exact shapes_doctypeName env
  | doctypePublicIdentifierDoubleQuoted => exact shapes_doctypePublicIdentifierDoubleQuoted env
  | doctypePublicIdentifierSingleQuoted => exact shapes_doctypePublicIdentifierSingleQuoted env
  | doctypeSystemIdentifierDoubleQuoted => exact shapes_doctypeSystemIdentifierDoubleQuoted env
  | doctypeSystemIdentifierSingleQuoted => exact shapes_doctypeSystemIdentifierSingleQuoted env
  | endTagOpen => exact shapes_endTagOpen env
  | markupDeclarationOpen => exact shapes_markupDeclarationOpen env
  | plaintext => exact shapes_plaintext env
  | rawtext => exact shapes_rawtext env
  | rawtextEndTagName => exact shapes_rawtextEndTagName env
  | rawtextEndTagOpen => exact shapes_rawtextEndTagOpen env
  | rawtextLessThanSign => exact shapes_rawtextLessThanSign env
  | rcdata => exact shapes_rcdata env
  | rcdataEndTagName => exact shapes_rcdataEndTagName env
  | rcdataEndTagOpen => exact shapes_rcdataEndTagOpen env
  | rcdataLessThanSign => exact shapes_rcdataLessThanSign env
  | scriptData => exact shapes_scriptData env
  | scriptDataDoubleEscaped => exact shapes_scriptDataDoubleEscaped env
  | scriptDataDoubleEscapedDash => exact shapes_scriptDataDoubleEscapedDash env
  | scriptDataDoubleEscapedDashDash => exact shapes_scriptDataDoubleEscapedDashDash env
  | scriptDataDoubleEscapedLessThanSign => exact shapes_scriptDataDoubleEscapedLessThanSign env
  | scriptDataDoubleEscapeEnd => exact shapes_scriptDataDoubleEscapeEnd env
  | scriptDataDoubleEscapeStart => exact shapes_scriptDataDoubleEscapeStart env
  | scriptDataEndTagName => exact shapes_scriptDataEndTagName env
  | scriptDataEndTagOpen => exact shapes_scriptDataEndTagOpen env
  | scriptDataEscaped => exact shapes_scriptDataEscaped env
  | scriptDataEscapedDash => exact shapes_scriptDataEscapedDash env
  | scriptDataEscapedDashDash => exact shapes_scriptDataEscapedDashDash env
  | scriptDataEscapedEndTagName => exact shapes_scriptDataEscapedEndTagName env
  | scriptDataEscapedEndTagOpen => exact shapes_scriptDataEscapedEndTagOpen env
  | scriptDataEscapedLessThanSign => exact shapes_scriptDataEscapedLessThanSign env
  | scriptDataEscapeStart => exact shapes_scriptDataEscapeStart env
  | scriptDataEscapeStartDash => exact shapes_scriptDataEscapeStartDash env
  | scriptDataLessThanSign => exact shapes_scriptDataLessThanSign env
  | selfClosingStart => exact shapes_selfClosingStart env
  | tagName => exact shapes_tagName env
  | tagOpen => exact shapes_tagOpen env

end Verif.HtmlTok
