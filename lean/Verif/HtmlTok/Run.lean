import Verif.HtmlTok.After
import Verif.HtmlTok.Sim
import Verif.HtmlTok.Sim2
import Verif.HtmlTok.Sim3
import Verif.HtmlTok.Sim4

/-!
# Whole runs: they end, and the simulation carries through
-/

namespace Verif.HtmlTok

open Standard (Machine Step)
open Relation (ReflTransGen)

theorem settle_fst (p : Parser) (got q : List Token) (s : State) : (settle p got q s).1 = got ++ q := by
  induction q generalizing got s with
  | nil => simp [settle]
  | cons k q ih => simp [settle, ih]

/-! ## runs end -/

/-- what holds of a run at every point -/
structure RunOk (r : Run) : Prop where
  emitted : Emitted r.tok
  back : r.tok.queue = [] ∨ .eof ∈ r.tok.queue ∨ rank r.tok.state r.tok.rest = 4
  eof : .eof ∉ r.got ∨ ∃ g, r.got = g ++ [.eof] ∧ .eof ∉ g ∧ r.tok.queue = []

theorem not_done {r : Run} (h : .eof ∉ r.got) : r.done = false := by
  simp only [Run.done, decide_eq_false_iff_not]
  intro h'
  exact h (List.mem_of_getLast? h')

theorem rank_after (p : Parser) (got : List Token) (s : State) (r : Str) (k : Token) (h : rank s r = 4) :
    rank (afterToken p got s k) r = 4 := by
  unfold afterToken
  split
  · cases p.switch got with
    | none => exact h
    | some c => cases c <;> rfl
  · exact h

theorem RunOk.step {env : Env} {p : Parser} {r : Run} (h : RunOk r) : RunOk (r.step env p) := by
  unfold Run.step
  split_ifs with hd
  · exact h
  have he : .eof ∉ r.got := by
    rcases h.eof with he | ⟨g, hg, _, _⟩
    · exact he
    · exfalso; apply hd; simp [Run.done, hg]
  split
  · rename_i k q hq
    have hem := h.emitted
    have hb := h.back
    rcases hem with hem | ⟨s, k', hem⟩
    · simp [hem] at hq
    rw [hem] at hq hb
    by_cases hs : s = []
    · simp only [hs, if_true, List.nil_append, List.cons.injEq] at hq
      obtain ⟨rfl, rfl⟩ := hq
      refine ⟨.inl rfl, .inl rfl, ?_⟩
      by_cases hk : k' = .eof
      · subst hk
        exact .inr ⟨r.got, rfl, he, rfl⟩
      · refine .inl ?_
        simp only [List.mem_append, List.mem_singleton, not_or]
        exact ⟨he, fun hh => hk hh.symm⟩
    · simp only [hs, if_false, List.cons_append, List.nil_append, List.cons.injEq] at hq
      obtain ⟨rfl, rfl⟩ := hq
      refine ⟨.inr ⟨[], k', rfl⟩, ?_, .inl ?_⟩
      · simp only [hs, if_false, List.cons_append, List.nil_append] at hb
        rcases hb with hb | hb | hb
        · simp at hb
        · refine .inr (.inl ?_)
          simpa using hb
        · refine .inr (.inr ?_)
          exact rank_after p (r.got ++ [.text s]) r.tok.state r.tok.rest (.text s) hb
      · simp [he]
  · rename_i hq
    have := step_after env r.tok.state (p.foreign r.got) r.tok hq rfl
    exact ⟨this.1, this.2, .inl he⟩

theorem RunOk.start (input : Str) (c : Content) : RunOk (.start input c) := ⟨.inl rfl, .inl rfl, .inl (by simp [Run.start])⟩

/-- how long a run may go on -/
def runMu (r : Run) : Nat := if r.done then 0 else 1 + mu r.tok

theorem runMu_step {env : Env} {p : Parser} {r : Run} (hT : CharRef.TableOk env.names) (h : RunOk r) (hd : r.done = false) :
    runMu (r.step env p) < runMu r := by
  have hr : runMu r = 1 + mu r.tok := by simp [runMu, hd]
  rw [hr]
  rcases h.emitted with hem | ⟨s, k', hem⟩
  · have hs : r.step env p = { r with tok := step env (p.foreign r.got) r.tok } := by
      unfold Run.step; rw [if_neg (by simp [hd])]; simp [hem]
    have hd' : (r.step env p).done = false := by rw [hs]; exact hd
    have := step_mu hT r.tok.state (p.foreign r.got) r.tok hem rfl
    rw [runMu, if_neg (by simp [hd']), hs]
    dsimp only
    omega
  · have hb := h.back
    by_cases hs : s = []
    · simp only [hs, if_true, List.nil_append] at hem
      have hst : r.step env p =
          ⟨{ r.tok with queue := [], state := afterToken p (r.got ++ [k']) r.tok.state k' }, r.got ++ [k']⟩ := by
        unfold Run.step; rw [if_neg (by simp [hd])]; simp [hem]
      rw [hst]
      by_cases hk : k' = .eof
      · subst hk
        rw [runMu, if_pos (by simp [Run.done])]
        omega
      · have hrk : rank r.tok.state r.tok.rest = 4 := by
          rw [hem] at hb
          rcases hb with hb | hb | hb
          · simp at hb
          · simp at hb; exact absurd hb.symm hk
          · exact hb
        have hm : mu r.tok = 100 * r.tok.rest.length + 5 := by
          unfold mu
          rw [hem, if_neg (by simp), if_neg (by simp; exact fun hh => hk hh.symm)]
          simp
        have : rank (afterToken p (r.got ++ [k']) r.tok.state k') r.tok.rest = 4 := rank_after _ _ _ _ _ hrk
        rw [runMu]
        split_ifs
        · omega
        · rw [hm]
          simp only [mu, if_true, this]
          omega
    · simp only [hs, if_false, List.cons_append, List.nil_append] at hem
      have hst : r.step env p = { tok := { r.tok with queue := [k'] }, got := r.got ++ [.text s] } := by
        unfold Run.step; rw [if_neg (by simp [hd])]; simp [hem, afterToken]
      rw [hst]
      rw [runMu]
      split_ifs
      · omega
      · simp only [mu, hem]
        by_cases hk : k' = .eof
        · subst hk; simp
        · have h1 : ¬ Token.eof = k' := fun hh => hk hh.symm
          simp [h1]

theorem iterate_ok (env : Env) (p : Parser) (input : Str) (c : Content) (n : Nat) :
    RunOk ((Run.step env p)^[n] (.start input c)) := by
  induction n with
  | zero => exact .start input c
  | succ n ih => rw [Function.iterate_succ_apply']; exact ih.step

theorem run_ends {env : Env} {p : Parser} (hT : CharRef.TableOk env.names) (r : Run) (h : RunOk r) :
    ∃ n, ((Run.step env p)^[n] r).done = true := by
  generalize hm : runMu r = m
  induction m using Nat.strongRecOn generalizing r with
  | ind m ih =>
    cases hd : r.done with
    | true => exact ⟨0, hd⟩
    | false =>
      obtain ⟨n, hn⟩ := ih _ (hm ▸ runMu_step hT h hd) _ h.step rfl
      exact ⟨n + 1, hn⟩

theorem done_step {env : Env} {p : Parser} {r : Run} (h : r.done = true) : r.step env p = r := by simp [Run.step, h]

theorem done_iterate {env : Env} {p : Parser} {r : Run} (h : r.done = true) (n : Nat) : (Run.step env p)^[n] r = r := by
  induction n with
  | zero => rfl
  | succ n ih => rw [Function.iterate_succ_apply, done_step h, ih]

theorem yields_unique {env : Env} {p : Parser} {input : Str} {c : Content} {a b : List Token} (ha : Yields env p input c a)
    (hb : Yields env p input c b) : a = b := by
  obtain ⟨n, rfl, hn⟩ := ha
  obtain ⟨m, rfl, hm⟩ := hb
  have key : ∀ i j : Nat, ((Run.step env p)^[i] (Run.start input c)).got.getLast? = some .eof →
      (Run.step env p)^[i + j] (Run.start input c) = (Run.step env p)^[i] (Run.start input c) := by
    intro i j h
    rw [Nat.add_comm, Function.iterate_add_apply]
    exact done_iterate (by simp [Run.done, h]) j
  rcases Nat.le_total n m with h | h
  · obtain ⟨j, rfl⟩ := Nat.exists_eq_add_of_le h
    rw [key n j hn]
  · obtain ⟨j, rfl⟩ := Nat.exists_eq_add_of_le h
    rw [key m j hm]

/-! ## the standard's machine emits one end of file, last -/

structure EofLast (m : Machine) : Prop where
  going : m.stopped = false → .eof ∉ m.out
  stopped : m.stopped = true → ∃ o, m.out = o ++ [.eof] ∧ .eof ∉ o

theorem flush_eof (s : Str) : Token.eof ∉ (if s = [] then [] else [Token.text s]) := by
  by_cases h : s = [] <;> simp [h]

theorem EofLast.of {m : Machine} (hs : m.stopped = false) (h : .eof ∉ m.out) : EofLast m :=
  ⟨fun _ => h, fun h' => by simp [hs] at h'⟩

theorem emit_eof {m : Machine} {k : Token} (hk : k ≠ .eof) (h : .eof ∉ m.out) : .eof ∉ (m.emit k).out := by
  simp only [Machine.emit, List.mem_append, List.mem_singleton, not_or]
  exact ⟨⟨h, flush_eof _⟩, fun hh => hk hh.symm⟩

theorem EofLast.eof {m : Machine} (h : .eof ∉ m.out) : EofLast m.emitEof := by
  refine ⟨fun h' => by simp [Machine.emitEof] at h', fun _ => ⟨m.out ++ (if m.chars = [] then [] else [.text m.chars]), rfl, ?_⟩⟩
  simp only [List.mem_append, not_or]
  exact ⟨h, flush_eof _⟩

theorem EofLast.tag {p : Parser} {m : Machine} (hs : m.stopped = false) (h : .eof ∉ m.out) : EofLast (m.emitTag p) := by
  unfold Machine.emitTag
  split
  · exact .of hs (emit_eof (m := m.switch .data) (by simp) h)
  · exact .of hs (emit_eof (m := m.switch .data) (by simp) h)

set_option maxHeartbeats 1000000 in
open Standard.Machine in
theorem EofLast.act {p : Parser} {m : Machine} (h : EofLast m) (hs : m.stopped = false) : EofLast (Standard.act p m) := by
  have he := h.going hs
  obtain ⟨state, ret, input, tag, comment, doctype, buffer, lastStart, chars, out, flag, stopped⟩ := m
  simp only at hs he
  subst hs
  cases state <;> cases input <;> simp only [Standard.act, endTagName] <;> (try split_ifs) <;>
    first
      | exact .of rfl he
      | exact .tag rfl he
      | exact .eof he
      | exact .of rfl (emit_eof Token.noConfusion he)
      | exact .eof (emit_eof Token.noConfusion he)

theorem EofLast.step {T : List (Str × Str)} {p : Parser} {m m' : Machine} (h : EofLast m) (hs : Step T p m m') : EofLast m' := by
  cases hs with
  | state h1 h2 => exact h.act h1
  | reference h1 h2 h3 =>
    unfold Standard.afterReference
    split
    · exact .of h1 (h.going h1)
    · exact .of h1 (h.going h1)

theorem EofLast.steps {T : List (Str × Str)} {p : Parser} {m m' : Machine} (h : EofLast m)
    (hs : ReflTransGen (Step T p) m m') : EofLast m' := by
  induction hs with
  | refl => exact h
  | tail _ hs ih => exact ih.step hs

theorem EofLast.start (input : Str) (c : Content) : EofLast (Standard.start input c) := .of rfl (by simp [Standard.start])

/-! ## the simulation over whole runs -/

theorem sim_all {env : Env} (p : Parser) (hT : CharRef.TableOk env.names) (s : State) : Sim env p s := by
  cases s with
  | afterAttributeName => exact sim_afterAttributeName env p
  | afterAttributeValueQuoted => exact sim_afterAttributeValueQuoted env p
  | afterDoctypeName => exact sim_afterDoctypeName env p
  | afterDoctypePublicIdentifier => exact sim_afterDoctypePublicIdentifier env p
  | afterDoctypePublicKeyword => exact sim_afterDoctypePublicKeyword env p
  | afterDoctypeSystemIdentifier => exact sim_afterDoctypeSystemIdentifier env p
  | afterDoctypeSystemKeyword => exact sim_afterDoctypeSystemKeyword env p
  | attributeName => exact sim_attributeName env p
  | attributeValueDoubleQuoted => exact sim_attributeValueDoubleQuoted env p hT
  | attributeValueSingleQuoted => exact sim_attributeValueSingleQuoted env p hT
  | attributeValueUnquoted => exact sim_attributeValueUnquoted env p hT
  | beforeAttributeName => exact sim_beforeAttributeName env p
  | beforeAttributeValue => exact sim_beforeAttributeValue env p
  | beforeDoctypeName => exact sim_beforeDoctypeName env p
  | beforeDoctypePublicIdentifier => exact sim_beforeDoctypePublicIdentifier env p
  | beforeDoctypeSystemIdentifier => exact sim_beforeDoctypeSystemIdentifier env p
  | betweenDoctypePublicAndSystemIdentifiers => exact sim_betweenDoctypePublicAndSystemIdentifiers env p
  | bogusComment => exact sim_bogusComment env p
  | bogusDoctype => exact sim_bogusDoctype env p
  | cdataSection => exact sim_cdataSection env p
  | cdataSectionBracket => exact sim_cdataSectionBracket env p
  | cdataSectionEnd => exact sim_cdataSectionEnd env p
  | characterReferenceInAttributeValue => intro t m f _ _ _ h; exact h.rel.elim
  | characterReferenceInData => exact sim_characterReferenceInData env p hT
  | characterReferenceInRcData => exact sim_characterReferenceInRcData env p hT
  | comment => exact sim_comment' env p
  | commentEnd => exact sim_commentEnd env p
  | commentEndBang => exact sim_commentEndBang env p
  | commentEndDash => exact sim_commentEndDash env p
  | commentLessThanSign => exact sim_commentLessThanSign env p
  | commentLessThanSignBang => exact sim_commentLessThanSignBang env p
  | commentLessThanSignBangDash => exact sim_commentLessThanSignBangDash env p
  | commentLessThanSignBangDashDash => exact sim_commentLessThanSignBangDashDash env p
  | commentStart => exact sim_commentStart env p
  | commentStartDash => exact sim_commentStartDash env p
  | data => exact sim_data env p
  | doctype => exact sim_doctype env p
  | doctypeName => exact sim_doctypeName env p
  | doctypePublicIdentifierDoubleQuoted => exact sim_doctypePublicIdentifierDoubleQuoted env p
  | doctypePublicIdentifierSingleQuoted => exact sim_doctypePublicIdentifierSingleQuoted env p
  | doctypeSystemIdentifierDoubleQuoted => exact sim_doctypeSystemIdentifierDoubleQuoted env p
  | doctypeSystemIdentifierSingleQuoted => exact sim_doctypeSystemIdentifierSingleQuoted env p
  | endTagOpen => exact sim_endTagOpen env p
  | markupDeclarationOpen => exact sim_markupDeclarationOpen env p
  | plaintext => exact sim_plaintext env p
  | rawtext => exact sim_rawtext env p
  | rawtextEndTagName => exact sim_rawtextEndTagName env p
  | rawtextEndTagOpen => exact sim_rawtextEndTagOpen env p
  | rawtextLessThanSign => exact sim_rawtextLessThanSign env p
  | rcdata => exact sim_rcdata env p
  | rcdataEndTagName => exact sim_rcdataEndTagName env p
  | rcdataEndTagOpen => exact sim_rcdataEndTagOpen env p
  | rcdataLessThanSign => exact sim_rcdataLessThanSign env p
  | scriptData => exact sim_scriptData env p
  | scriptDataDoubleEscaped => exact sim_scriptDataDoubleEscaped env p
  | scriptDataDoubleEscapedDash => exact sim_scriptDataDoubleEscapedDash env p
  | scriptDataDoubleEscapedDashDash => exact sim_scriptDataDoubleEscapedDashDash env p
  | scriptDataDoubleEscapedLessThanSign => exact sim_scriptDataDoubleEscapedLessThanSign env p
  | scriptDataDoubleEscapeEnd => exact sim_scriptDataDoubleEscapeEnd env p
  | scriptDataDoubleEscapeStart => exact sim_scriptDataDoubleEscapeStart env p
  | scriptDataEndTagName => exact sim_scriptDataEndTagName env p
  | scriptDataEndTagOpen => exact sim_scriptDataEndTagOpen env p
  | scriptDataEscaped => exact sim_scriptDataEscaped env p
  | scriptDataEscapedDash => exact sim_scriptDataEscapedDash env p
  | scriptDataEscapedDashDash => exact sim_scriptDataEscapedDashDash env p
  | scriptDataEscapedEndTagName => exact sim_scriptDataEscapedEndTagName env p
  | scriptDataEscapedEndTagOpen => exact sim_scriptDataEscapedEndTagOpen env p
  | scriptDataEscapedLessThanSign => exact sim_scriptDataEscapedLessThanSign env p
  | scriptDataEscapeStart => exact sim_scriptDataEscapeStart env p
  | scriptDataEscapeStartDash => exact sim_scriptDataEscapeStartDash env p
  | scriptDataLessThanSign => exact sim_scriptDataLessThanSign env p
  | selfClosingStart => exact sim_selfClosingStart env p
  | tagName => exact sim_tagName env p
  | tagOpen => exact sim_tagOpen env p

/-- the two tokenizers side by side: at the same point, or the standard's has emitted an end tag with attributes before -/
def Beside (env : Env) (p : Parser) (r : Run) (m : Machine) : Prop :=
  Rel env p r.got r.tok m ∨ (m.endTagWithAttributes = true ∧ m.out <+: r.got ++ r.tok.queue)

theorem Going.congr {env : Env} {s : State} {t t' : Tok} {m : Machine} (h : Going env s t m) (h1 : t'.rest = t.rest)
    (h2 : t'.consumed = t.consumed) (h3 : t'.attrName = t.attrName) (h4 : t'.attrValue = t.attrValue) (h5 : t'.attrs = t.attrs)
    (h6 : t'.cur = t.cur) (h7 : t'.tmp = t.tmp) (h8 : t'.lastStart = t.lastStart) : Going env s t' m := by
  obtain ⟨a, b, c, d, e, f, g⟩ := h
  refine ⟨by rw [h1]; exact a, by rw [h2]; exact b, c, d, e, by rw [h1]; exact f, ?_⟩
  cases hk : kind s <;> rw [hk] at g <;>
    simp only [KindRel, Clean, SameTag, Pend, Named, Fresh, h1, h3, h4, h5, h6, h7, h8] at g ⊢ <;> exact g

theorem Rel.pop {env : Env} {p : Parser} {got q : List Token} {k : Token} {t : Tok} {m : Machine} (h : Rel env p got t m)
    (hq : t.queue = k :: q) :
    Rel env p (got ++ [k]) { t with queue := q, state := afterToken p (got ++ [k]) t.state k } m := by
  have e : settle p got t.queue t.state = settle p (got ++ [k]) q (afterToken p (got ++ [k]) t.state k) := by
    rw [hq]; rfl
  cases h with
  | going h1 h2 =>
    rw [e] at h1 h2
    exact .going h1 (h2.congr rfl rfl rfl rfl rfl rfl rfl rfl)
  | ending h1 h2 h3 h4 => rw [e] at h2 h4; exact .ending h1 h2 h3 h4
  | ended h1 h2 h3 => rw [e] at h2; exact .ended h1 h2 h3
  | flagged h1 h2 => rw [e] at h2; exact .flagged h1 h2

theorem step_data_nil {env : Env} {f : Bool} {t : Tok} (h : t.rest = []) (hs : t.state = .data) : step env f t = t.emit .eof := by
  simp [step, h, hs]

theorem step_got_prefix {env : Env} {p : Parser} (r : Run) : r.got ++ r.tok.queue <+: (r.step env p).got ++ (r.step env p).tok.queue := by
  unfold Run.step
  split_ifs with hd
  · exact List.prefix_refl _
  split
  · rename_i k q hq
    simp [hq]
  · rename_i hq
    simp [hq]

theorem Beside.step {env : Env} {p : Parser} (hT : CharRef.TableOk env.names) {r : Run} {m : Machine} (h : Beside env p r m) :
    ∃ m', ReflTransGen (Step env.names p) m m' ∧ Beside env p (r.step env p) m' := by
  rcases h with h | ⟨hf, hp⟩
  swap
  · exact ⟨m, .refl, .inr ⟨hf, hp.trans (step_got_prefix r)⟩⟩
  by_cases hd : r.done = true
  · exact ⟨m, .refl, by rw [done_step hd]; exact .inl h⟩
  cases hq : r.tok.queue with
  | cons k q =>
    refine ⟨m, .refl, ?_⟩
    have e : r.step env p = ⟨{ r.tok with queue := q, state := afterToken p (r.got ++ [k]) r.tok.state k }, r.got ++ [k]⟩ := by
      unfold Run.step; rw [if_neg hd, hq]
    rw [e]
    exact .inl (h.pop hq)
  | nil =>
    have e : r.step env p = ⟨HtmlTok.step env (p.foreign r.got) r.tok, r.got⟩ := by
      unfold Run.step; rw [if_neg hd, hq]
    have es : settle p r.got r.tok.queue r.tok.state = (r.got, r.tok.state) := by rw [hq]; rfl
    have hpre := step_got_prefix (env := env) (p := p) r
    cases h with
    | going h1 h2 =>
      rw [es] at h1 h2
      simp only at h1 h2
      obtain ⟨m', hs, hr⟩ := sim_all p hT r.tok.state r.tok m (p.foreign r.got) hq rfl (by rw [h1]) h2
      rw [h1] at hr
      exact ⟨m', hs, by rw [e]; exact .inl hr⟩
    | ending h1 h2 h3 h4 =>
      rw [es] at h2 h4
      simp only at h2 h4
      refine ⟨m, .refl, ?_⟩
      rw [e, step_data_nil h3 h2]
      refine .inl (.ended h1 ?_ ?_)
      · rw [h4, settle_fst]
        simp [Tok.emit, hq]
      · rw [h4]; simp
    | ended h1 h2 h3 =>
      exfalso
      apply hd
      rw [es] at h2
      simp only at h2
      simp [Run.done, ← h2, h3]
    | flagged h1 h2 =>
      rw [es] at h2
      simp only at h2
      refine ⟨m, .refl, .inr ⟨h1, ?_⟩⟩
      rw [h2]
      rw [hq, List.append_nil] at hpre
      exact hpre

theorem Beside.start {env : Env} {p : Parser} {input : Str} (hp : NoLookalikes env input) (c : Content) :
    Beside env p (.start input c) (Standard.start input c) := by
  refine .inl (.going rfl ⟨rfl, rfl, ?_, rfl, rfl, hp, ?_⟩)
  · cases c <;> rfl
  · cases c <;> first | exact ⟨rfl, rfl, rfl⟩ | exact ⟨⟨rfl, rfl, rfl⟩, rfl⟩

theorem beside_iterate {env : Env} {p : Parser} (hT : CharRef.TableOk env.names) {input : Str} (hp : NoLookalikes env input)
    (c : Content) (n : Nat) :
    ∃ m, Standard.Reaches env.names p input c m ∧ Beside env p ((Run.step env p)^[n] (.start input c)) m := by
  induction n with
  | zero => exact ⟨_, .refl, .start hp c⟩
  | succ n ih =>
    obtain ⟨m, hm, hb⟩ := ih
    obtain ⟨m', hm', hb'⟩ := hb.step hT
    exact ⟨m', hm.trans hm', by rw [Function.iterate_succ_apply']; exact hb'⟩

/-- the end of a run -/
theorem beside_done {env : Env} {p : Parser} {r : Run} {m : Machine} (hr : RunOk r) (he : EofLast m) (hd : r.done = true)
    (h : Beside env p r m) : (m.stopped = true ∧ m.out = r.got) ∨ (m.endTagWithAttributes = true ∧ m.out <+: r.got) := by
  obtain ⟨g, hg, hng, hq⟩ : ∃ g, r.got = g ++ [.eof] ∧ .eof ∉ g ∧ r.tok.queue = [] := by
    rcases hr.eof with h' | h'
    · rw [not_done h'] at hd; simp at hd
    · exact h'
  rcases h with h | ⟨h1, h2⟩
  · have es : settle p r.got r.tok.queue r.tok.state = (r.got, r.tok.state) := by rw [hq]; rfl
    cases h with
    | going h1 h2 =>
      rw [es] at h1
      exfalso
      apply he.going h2.going
      rw [h1, hg]
      simp
    | ending h1 h2 h3 h4 =>
      exfalso
      rw [es] at h4
      obtain ⟨o, ho, hno⟩ := he.stopped h1
      rw [ho] at h4
      have := (List.append_inj' h4 rfl).1
      apply hno
      rw [this, hg]
      simp
    | ended h1 h2 h3 => rw [es] at h2; exact .inl ⟨h1, h2⟩
    | flagged h1 h2 => rw [es] at h2; exact .inr ⟨h1, by rw [h2]; exact List.prefix_refl _⟩
  · rw [hq, List.append_nil] at h2
    exact .inr ⟨h1, h2⟩

/-! ## the standard's machine is deterministic -/

theorem step_det {T : List (Str × Str)} {p : Parser} (hT : CharRef.TableOk T) {m a b : Machine} (ha : Step T p m a)
    (hb : Step T p m b) : a = b := by
  cases ha with
  | state h1 h2 =>
    cases hb with
    | state => rfl
    | reference _ h => exact absurd h h2
  | reference h1 h2 h3 =>
    cases hb with
    | state _ h => exact absurd h2 h
    | reference h1' h2' h3' =>
      obtain ⟨rfl, rfl⟩ := CharRef.C51_rules_functional T hT _ _ _ _ _ _ h3 h3'
      rfl

theorem steps_stopped {T : List (Str × Str)} {p : Parser} {m a : Machine} (hs : m.stopped = true)
    (ha : ReflTransGen (Step T p) m a) : a = m := by
  rcases Relation.ReflTransGen.cases_head ha with h | ⟨b, hb, _⟩
  · exact h.symm
  · cases hb with
    | state h => simp [hs] at h
    | reference h => simp [hs] at h

/-- a stopped machine is reached from every machine reached before -/
theorem steps_to_stopped {T : List (Str × Str)} {p : Parser} (hT : CharRef.TableOk T) {m a b : Machine}
    (ha : ReflTransGen (Step T p) m a) (hb : ReflTransGen (Step T p) m b) (hs : b.stopped = true) :
    ReflTransGen (Step T p) a b := by
  induction ha using Relation.ReflTransGen.head_induction_on with
  | refl => exact hb
  | head h1 _ ih =>
    rcases Relation.ReflTransGen.cases_head hb with h | ⟨c, hc, hcb⟩
    · subst h
      cases h1 with
      | state h => simp [hs] at h
      | reference h => simp [hs] at h
    · rw [step_det hT h1 hc] at ih
      exact ih hcb

set_option maxHeartbeats 1000000 in
open Standard.Machine in
theorem act_flag {p : Parser} {m : Machine} (hf : m.endTagWithAttributes = true) :
    (Standard.act p m).endTagWithAttributes = true := by
  obtain ⟨state, ret, input, tag, comment, doctype, buffer, lastStart, chars, out, flag, stopped⟩ := m
  simp only at hf
  subst hf
  have ht : ∀ m' : Machine, m'.endTagWithAttributes = true → (m'.emitTag p).endTagWithAttributes = true := by
    intro m' h'
    unfold emitTag
    split
    · simp [h']
    · exact h'
  cases state <;> cases input <;> simp only [Standard.act, endTagName] <;> (try split_ifs) <;>
    first
      | rfl
      | exact ht _ rfl

theorem steps_flag {T : List (Str × Str)} {p : Parser} {m a : Machine} (hf : m.endTagWithAttributes = true)
    (ha : ReflTransGen (Step T p) m a) : a.endTagWithAttributes = true := by
  induction ha with
  | refl => exact hf
  | tail _ hs ih =>
    cases hs with
    | state => exact act_flag ih
    | reference =>
      unfold Standard.afterReference
      split <;> exact ih

end Verif.HtmlTok
