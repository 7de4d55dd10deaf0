import Verif.HtmlTok.Trip2

/-!
# Comments, written out and read
-/

namespace Verif.HtmlTok

open Relation (ReflTransGen)

/-- what a state inside a comment has read and not yet added to the comment -/
def pend : State → Option Str
  | .commentStart | .comment | .commentLessThanSign | .commentLessThanSignBang => some []
  | .commentStartDash | .commentEndDash | .commentLessThanSignBangDash => some ['-']
  | .commentEnd | .commentLessThanSignBangDashDash => some ['-', '-']
  | .commentEndBang => some ['-', '-', '!']
  | _ => none

/-- inside a comment of which `u` has been read -/
def InComment (co tmp ls u r : Str) (t : Tok) : Prop :=
  ∃ σ d e, t = ⟨r, σ, co, [], [], [], some (.comment d), tmp, [], ls⟩ ∧ pend σ = some e ∧ u = d ++ e ∧
    ((σ = .commentStart ∨ σ = .commentStartDash) → d = [])

/-- where a `>` would end the comment -/
def Bad (u : Str) : Prop := u = [] ∨ u = ['-'] ∨ ['-', '-'] <:+ u ∨ ['-', '-', '!'] <:+ u

section
variable {env : Env} (f : Bool) {co tmp ls : Str}

theorem comment_plain {d r : Str} {c : Char} (hc : c ≠ Char.ofNat 0) :
    ∃ t', TGo env f ⟨c :: r, .comment, co, [], [], [], some (.comment d), tmp, [], ls⟩ t' ∧ InComment co tmp ls (d ++ [c]) r t' := by
  by_cases h1 : c = '<'
  · subst h1
    exact ⟨⟨r, .commentLessThanSign, co, [], [], [], some (.comment (d ++ ['<'])), tmp, [], ls⟩,
      TGo.one rfl (by simp [step, Tok.addValue, Tok.adv]), _, _, [], rfl, rfl, by simp, by simp⟩
  · by_cases h2 : c = '-'
    · subst h2
      exact ⟨⟨r, .commentEndDash, co, [], [], [], some (.comment d), tmp, [], ls⟩,
        TGo.one rfl (by simp [step, Tok.adv]), _, _, _, rfl, rfl, rfl, by simp⟩
    · exact ⟨⟨r, .comment, co, [], [], [], some (.comment (d ++ [c])), tmp, [], ls⟩,
        TGo.one rfl (by simp [step, Tok.addValue, h1, h2, hc]), _, _, [], rfl, rfl, by simp, by simp⟩

theorem comment_endDash {d r : Str} {c : Char} (hc : c ≠ Char.ofNat 0) :
    ∃ t', TGo env f ⟨c :: r, .commentEndDash, co, [], [], [], some (.comment d), tmp, [], ls⟩ t' ∧
      InComment co tmp ls (d ++ ['-'] ++ [c]) r t' := by
  by_cases h1 : c = '-'
  · subst h1
    exact ⟨⟨r, .commentEnd, co, [], [], [], some (.comment d), tmp, [], ls⟩,
      TGo.one rfl (by simp [step, Tok.adv]), _, _, _, rfl, rfl, by simp, by simp⟩
  · obtain ⟨t', h, hi⟩ := comment_plain (env := env) f (co := co) (tmp := tmp) (ls := ls) (d := d ++ ['-']) (r := r) hc
    exact ⟨t', TGo.head rfl (by simp [step, Tok.addValue, Tok.goto, h1]) h, hi⟩

theorem comment_end {d r : Str} {c : Char} (hc : c ≠ Char.ofNat 0) (hg : c ≠ '>') :
    ∃ t', TGo env f ⟨c :: r, .commentEnd, co, [], [], [], some (.comment d), tmp, [], ls⟩ t' ∧
      InComment co tmp ls (d ++ ['-', '-'] ++ [c]) r t' := by
  by_cases h1 : c = '-'
  · subst h1
    exact ⟨⟨r, .commentEnd, co, [], [], [], some (.comment (d ++ ['-'])), tmp, [], ls⟩,
      TGo.one rfl (by simp [step, Tok.addValue]), _, _, _, rfl, rfl, by simp, by simp⟩
  · by_cases h2 : c = '!'
    · subst h2
      exact ⟨⟨r, .commentEndBang, co, [], [], [], some (.comment d), tmp, [], ls⟩,
        TGo.one rfl (by simp [step, Tok.adv]), _, _, _, rfl, rfl, by simp, by simp⟩
    · obtain ⟨t', h, hi⟩ := comment_plain (env := env) f (co := co) (tmp := tmp) (ls := ls) (d := d ++ ['-', '-']) (r := r) hc
      exact ⟨t', TGo.head rfl (by simp [step, Tok.addValue, Tok.goto, h1, h2, hg]) h, hi⟩

theorem comment_char {u r : Str} {c : Char} {t : Tok} (ht : InComment co tmp ls u (c :: r) t) (hc : c ≠ Char.ofNat 0)
    (hg : c = '>' → ¬ Bad u) : ∃ t', TGo env f t t' ∧ InComment co tmp ls (u ++ [c]) r t' := by
  obtain ⟨σ, d, e, rfl, hp, rfl, hd⟩ := ht
  cases σ <;> simp only [pend, Option.some.injEq, reduceCtorEq] at hp <;> subst hp
  case commentStart =>
    have : d = [] := hd (.inl rfl)
    subst this
    by_cases h1 : c = '-'
    · subst h1
      exact ⟨⟨r, .commentStartDash, co, [], [], [], some (.comment []), tmp, [], ls⟩,
        TGo.one rfl (by simp [step, Tok.adv]), _, _, _, rfl, rfl, by simp, by simp⟩
    · have h2 : c ≠ '>' := fun h => hg h (.inl rfl)
      obtain ⟨t', h, hi⟩ := comment_plain (env := env) f (co := co) (tmp := tmp) (ls := ls) (d := []) (r := r) hc
      exact ⟨t', TGo.head rfl (by simp [step, Tok.goto, h1, h2]) h, hi⟩
  case commentStartDash =>
    have : d = [] := hd (.inr rfl)
    subst this
    by_cases h1 : c = '-'
    · subst h1
      exact ⟨⟨r, .commentEnd, co, [], [], [], some (.comment []), tmp, [], ls⟩,
        TGo.one rfl (by simp [step, Tok.adv]), _, _, _, rfl, rfl, by simp, by simp⟩
    · have h2 : c ≠ '>' := fun h => hg h (.inr (.inl rfl))
      obtain ⟨t', h, hi⟩ := comment_plain (env := env) f (co := co) (tmp := tmp) (ls := ls) (d := ['-']) (r := r) hc
      exact ⟨t', TGo.head rfl (by simp [step, Tok.addValue, Tok.goto, h1, h2]) h, hi⟩
  case comment => simpa using comment_plain (env := env) f (co := co) (tmp := tmp) (ls := ls) (d := d) (r := r) hc
  case commentLessThanSign =>
    by_cases h1 : c = '!'
    · subst h1
      exact ⟨⟨r, .commentLessThanSignBang, co, [], [], [], some (.comment (d ++ ['!'])), tmp, [], ls⟩,
        TGo.one rfl (by simp [step, Tok.addValue, Tok.adv]), _, _, [], rfl, rfl, by simp, by simp⟩
    · by_cases h2 : c = '<'
      · subst h2
        exact ⟨⟨r, .commentLessThanSign, co, [], [], [], some (.comment (d ++ ['<'])), tmp, [], ls⟩,
          TGo.one rfl (by simp [step, Tok.addValue]), _, _, [], rfl, rfl, by simp, by simp⟩
      · obtain ⟨t', h, hi⟩ := comment_plain (env := env) f (co := co) (tmp := tmp) (ls := ls) (d := d) (r := r) hc
        exact ⟨t', TGo.head rfl (by simp [step, Tok.goto, h1, h2]) h, by simpa using hi⟩
  case commentLessThanSignBang =>
    by_cases h1 : c = '-'
    · subst h1
      exact ⟨⟨r, .commentLessThanSignBangDash, co, [], [], [], some (.comment d), tmp, [], ls⟩,
        TGo.one rfl (by simp [step, Tok.adv]), _, _, _, rfl, rfl, by simp, by simp⟩
    · obtain ⟨t', h, hi⟩ := comment_plain (env := env) f (co := co) (tmp := tmp) (ls := ls) (d := d) (r := r) hc
      exact ⟨t', TGo.head rfl (by simp [step, Tok.goto, h1]) h, by simpa using hi⟩
  case commentLessThanSignBangDash =>
    by_cases h1 : c = '-'
    · subst h1
      exact ⟨⟨r, .commentLessThanSignBangDashDash, co, [], [], [], some (.comment d), tmp, [], ls⟩,
        TGo.one rfl (by simp [step, Tok.adv]), _, _, _, rfl, rfl, by simp, by simp⟩
    · obtain ⟨t', h, hi⟩ := comment_endDash (env := env) f (co := co) (tmp := tmp) (ls := ls) (d := d) (r := r) hc
      exact ⟨t', TGo.head rfl (by simp [step, Tok.goto, h1]) h, by simpa using hi⟩
  case commentLessThanSignBangDashDash =>
    have h2 : c ≠ '>' := fun h => hg h (.inr (.inr (.inl ⟨d, rfl⟩)))
    obtain ⟨t', h, hi⟩ := comment_end (env := env) f (co := co) (tmp := tmp) (ls := ls) (d := d) (r := r) hc h2
    exact ⟨t', TGo.head rfl (by simp [step, Tok.goto]) h, by simpa using hi⟩
  case commentEndDash => simpa using comment_endDash (env := env) f (co := co) (tmp := tmp) (ls := ls) (d := d) (r := r) hc
  case commentEnd =>
    have h2 : c ≠ '>' := fun h => hg h (.inr (.inr (.inl ⟨d, rfl⟩)))
    simpa using comment_end (env := env) f (co := co) (tmp := tmp) (ls := ls) (d := d) (r := r) hc h2
  case commentEndBang =>
    have h2 : c ≠ '>' := fun h => hg h (.inr (.inr (.inr ⟨d, rfl⟩)))
    by_cases h1 : c = '-'
    · subst h1
      exact ⟨⟨r, .commentEndDash, co, [], [], [], some (.comment (d ++ ['-', '-', '!'])), tmp, [], ls⟩,
        TGo.one rfl (by simp [step, Tok.addValue, Tok.adv]), _, _, _, rfl, rfl, by simp, by simp⟩
    · obtain ⟨t', h, hi⟩ := comment_plain (env := env) f (co := co) (tmp := tmp) (ls := ls) (d := d ++ ['-', '-', '!']) (r := r) hc
      exact ⟨t', TGo.head rfl (by simp [step, Tok.addValue, Tok.goto, h1, h2]) h, by simpa using hi⟩

/-- after a dash, which states are possible -/
theorem comment_dash {u r : Str} {t : Tok} (ht : InComment co tmp ls u ('-' :: '-' :: r) t) :
    TGo env f t ⟨r, .commentEnd, co, [], [], [], some (.comment u), tmp, [], ls⟩ := by
  obtain ⟨σ, d, e, rfl, hp, rfl, hd⟩ := ht
  have e1 : ∀ x : Str, TGo env f ⟨'-' :: '-' :: r, .comment, co, [], [], [], some (.comment x), tmp, [], ls⟩
      ⟨r, .commentEnd, co, [], [], [], some (.comment x), tmp, [], ls⟩ := fun x =>
    TGo.head (t' := ⟨'-' :: r, .commentEndDash, co, [], [], [], some (.comment x), tmp, [], ls⟩) rfl (by simp [step, Tok.adv])
      (TGo.one rfl (by simp [step, Tok.adv]))
  have e2 : ∀ x : Str, TGo env f ⟨'-' :: r, .commentEnd, co, [], [], [], some (.comment x), tmp, [], ls⟩
      ⟨r, .commentEnd, co, [], [], [], some (.comment (x ++ ['-'])), tmp, [], ls⟩ := fun x =>
    TGo.one rfl (by simp [step, Tok.addValue])
  have e3 : ∀ x : Str, TGo env f ⟨'-' :: '-' :: r, .commentEnd, co, [], [], [], some (.comment x), tmp, [], ls⟩
      ⟨r, .commentEnd, co, [], [], [], some (.comment (x ++ ['-', '-'])), tmp, [], ls⟩ := fun x =>
    TGo.head (t' := ⟨'-' :: r, .commentEnd, co, [], [], [], some (.comment (x ++ ['-'])), tmp, [], ls⟩) rfl
      (by simp [step, Tok.addValue]) (by simpa using e2 (x ++ ['-']))
  cases σ <;> simp only [pend, Option.some.injEq, reduceCtorEq] at hp <;> subst hp
  case commentStart =>
    have : d = [] := hd (.inl rfl)
    subst this
    exact TGo.head (t' := ⟨'-' :: r, .commentStartDash, co, [], [], [], some (.comment []), tmp, [], ls⟩) rfl
      (by simp [step, Tok.adv]) (TGo.one rfl (by simp [step, Tok.adv]))
  case commentStartDash =>
    have : d = [] := hd (.inr rfl)
    subst this
    exact TGo.head (t' := ⟨'-' :: r, .commentEnd, co, [], [], [], some (.comment []), tmp, [], ls⟩) rfl
      (by simp [step, Tok.adv]) (e2 [])
  case comment => simpa using e1 d
  case commentLessThanSign =>
    exact TGo.head (t' := ⟨'-' :: '-' :: r, .comment, co, [], [], [], some (.comment d), tmp, [], ls⟩) rfl
      (by simp [step, Tok.goto]) (by simpa using e1 d)
  case commentLessThanSignBang =>
    exact TGo.head (t' := ⟨'-' :: r, .commentLessThanSignBangDash, co, [], [], [], some (.comment d), tmp, [], ls⟩) rfl
      (by simp [step, Tok.adv])
      (TGo.head (t' := ⟨r, .commentLessThanSignBangDashDash, co, [], [], [], some (.comment d), tmp, [], ls⟩) rfl
        (by simp [step, Tok.adv]) (TGo.one rfl (by simp [step, Tok.goto])))
  case commentLessThanSignBangDash =>
    exact TGo.head (t' := ⟨'-' :: r, .commentLessThanSignBangDashDash, co, [], [], [], some (.comment d), tmp, [], ls⟩) rfl
      (by simp [step, Tok.adv])
      (TGo.head (t' := ⟨'-' :: r, .commentEnd, co, [], [], [], some (.comment d), tmp, [], ls⟩) rfl
        (by simp [step, Tok.goto]) (e2 d))
  case commentLessThanSignBangDashDash =>
    exact TGo.head (t' := ⟨'-' :: '-' :: r, .commentEnd, co, [], [], [], some (.comment d), tmp, [], ls⟩) rfl
        (by simp [step, Tok.goto]) (e3 d)
  case commentEndDash =>
    exact TGo.head (t' := ⟨'-' :: r, .commentEnd, co, [], [], [], some (.comment d), tmp, [], ls⟩) rfl
      (by simp [step, Tok.adv]) (e2 d)
  case commentEnd => exact e3 d
  case commentEndBang =>
    exact TGo.head (t' := ⟨'-' :: r, .commentEndDash, co, [], [], [], some (.comment (d ++ ['-', '-', '!'])), tmp, [], ls⟩) rfl
      (by simp [step, Tok.addValue, Tok.adv]) (TGo.one rfl (by simp [step, Tok.adv]))

theorem not_bad {s u v : Str} (h : CommentText s) (hs : s = u ++ '>' :: v) : ¬ Bad u := by
  obtain ⟨h1, h2, h3, h4, _⟩ := h
  rintro (rfl | rfl | ⟨a, rfl⟩ | ⟨a, rfl⟩)
  · exact h1 ⟨v, by simp [hs]⟩
  · exact h2 ⟨v, by simp [hs]⟩
  · exact h3 ⟨a, v, by simp [hs]⟩
  · exact h4 ⟨a, v, by simp [hs]⟩

theorem comment_text {s : Str} (h : CommentText s) (r : Str) : ∀ (v u : Str) (t : Tok), s = u ++ v → InComment co tmp ls u (v ++ r) t →
    ∃ t', TGo env f t t' ∧ InComment co tmp ls s r t' := by
  intro v
  induction v with
  | nil =>
    intro u t hs ht
    have : s = u := by simpa using hs
    subst this
    exact ⟨t, TGo.rfl' t, ht⟩
  | cons c v ih =>
    intro u t hs ht
    have hc : c ≠ Char.ofNat 0 := fun e => h.2.2.2.2 (by rw [hs, ← e]; simp)
    obtain ⟨t1, g1, i1⟩ := comment_char (env := env) f ht hc (fun e => not_bad (v := v) h (by rw [hs, e]))
    obtain ⟨t2, g2, i2⟩ := ih (u ++ [c]) t1 (by simp [hs]) i1
    exact ⟨t2, g1.trans g2, i2⟩

theorem ready_comment (p : Parser) {got : List Token} (hg : .eof ∉ got) {s : Str} (hs : CommentText s) {co rest : Str} {r : Run}
    (hr : Ready co (print (.comment s) ++ rest) got r)
    (hk : p.switch (got ++ flush co ++ [.comment s]) = none) :
    ∃ r', Goes env p r r' ∧ Ready [] rest (got ++ flush co ++ [.comment s]) r' := by
  obtain ⟨cur, tmp, ls, rfl⟩ := hr
  have e : print (.comment s) ++ rest = '<' :: '!' :: (['-', '-'] ++ (s ++ '-' :: '-' :: '>' :: rest)) := by
    simp only [print_comment, List.append_assoc]; rfl
  rw [e]
  have h1 : TGo env (p.foreign got)
      ⟨'<' :: '!' :: (['-', '-'] ++ (s ++ '-' :: '-' :: '>' :: rest)), .data, co, [], [], [], cur, tmp, [], ls⟩
      ⟨['-', '-'] ++ (s ++ '-' :: '-' :: '>' :: rest), .markupDeclarationOpen, co, [], [], [], cur, tmp, [], ls⟩ :=
    TGo.head (t' := ⟨'!' :: (['-', '-'] ++ (s ++ '-' :: '-' :: '>' :: rest)), .tagOpen, co, [], [], [], cur, tmp, [], ls⟩)
      rfl (by simp [step, Tok.adv]) (TGo.one rfl (by simp [step, Tok.adv]))
  have h2 : step env (p.foreign got)
      ⟨['-', '-'] ++ (s ++ '-' :: '-' :: '>' :: rest), .markupDeclarationOpen, co, [], [], [], cur, tmp, [], ls⟩ =
      ⟨s ++ '-' :: '-' :: '>' :: rest, .commentStart, co, [], [], [], some (.comment []), tmp, [], ls⟩ := by
    simp [step, Tok.markupDeclaration, slice]
  obtain ⟨t', g, i⟩ := comment_text (env := env) (p.foreign got) (co := co) (tmp := tmp) (ls := ls) hs ('-' :: '-' :: '>' :: rest) s []
    ⟨s ++ '-' :: '-' :: '>' :: rest, .commentStart, co, [], [], [], some (.comment []), tmp, [], ls⟩ rfl
    ⟨_, _, _, rfl, rfl, rfl, fun _ => rfl⟩
  have g2 := comment_dash (env := env) (p.foreign got) i
  refine ready_emit (ls := ls) (tmp := tmp) (cur := none) hg (((h1.trans (TGo.one rfl h2)).trans g).trans g2) rfl ?_ hk
  by_cases hco : co = [] <;> simp [step, Tok.adv, Tok.emitCur, Tok.emit, Tok.noteStart, flush, hco]

end

end Verif.HtmlTok
