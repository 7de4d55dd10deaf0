import Verif.CssTok.Props

/-! # C98: the token buffer -/

namespace Verif.CssTok

/-- the tokens in the buffer are the first of the list, and what is left of the text has the others -/
structure Holds (env : Env) (f : Nat → Token) (m : Nat) (t : Tokenizer) : Prop where
  pos : t.pos ≤ t.tokens.length
  read : ∀ i, i < t.tokens.length → t.tokens[i]? = some (f i)
  rest : ∃ us, Yields env t.tokens.isEmpty t.rest us ∧ ∀ i, f (t.tokens.length + i) = us[i]?.getD .eof
  short : t.rest.length ≤ m

theorem Holds.more {env : Env} {f : Nat → Token} {m n : Nat} (hn : m < n) {t : Tokenizer} (h : Holds env f m t) :
    ∃ t', t.more env n = some t' ∧ t'.pos = t.pos ∧ t'.tokens.length = t.tokens.length + 1 ∧ Holds env f m t' := by
  obtain ⟨k, r, e, hk⟩ := token_total env n t.tokens.isEmpty t.rest (by have := h.short; omega)
  refine ⟨{ t with rest := r, tokens := t.tokens ++ [k] }, by simp [Tokenizer.more, e], rfl, by simp, ?_⟩
  obtain ⟨us, hu, hf⟩ := h.rest
  have hk0 : f t.tokens.length = k := by
    have := hf 0
    rw [Nat.add_zero] at this
    rw [this]
    cases hu with
    | eof h' => cases token_unique env e h'; rfl
    | next h' => cases token_unique env e h'; rfl
  refine ⟨by have := h.pos; simp; omega, ?_, ?_, ?_⟩
  · intro i hi
    simp at hi
    by_cases hlt : i < t.tokens.length
    · rw [List.getElem?_append_left hlt]
      exact h.read i hlt
    · have : i = t.tokens.length := by omega
      subst this
      simp [hk0]
  · have hne : (t.tokens ++ [k]).isEmpty = false := by simp
    cases hu with
    | eof h' =>
      cases token_unique env e h'
      have hr : r = [] := by
        rcases hk with ⟨_, hr⟩ | ⟨_, hr⟩
        · exact hr
        · exact absurd rfl hr
      subst hr
      refine ⟨[.eof], by simp only [hne]; exact .eof (n := 1) rfl, ?_⟩
      intro i
      have := hf (i + 1)
      simp only [List.length_append, List.length_singleton]
      rw [Nat.add_assoc, Nat.add_comm 1 i, this]
      cases i <;> simp
    | next h' _ hs =>
      cases token_unique env e h'
      refine ⟨_, by simp only [hne]; exact hs, ?_⟩
      intro i
      have := hf (i + 1)
      simp only [List.length_append, List.length_singleton]
      rw [Nat.add_assoc, Nat.add_comm 1 i, this]
      simp
  · rcases hk with ⟨_, rfl⟩ | ⟨hs, _⟩
    · simp
    · have := hs.2
      have := h.short
      show r.length ≤ m
      omega

theorem Holds.fill {env : Env} {f : Nat → Token} {m n : Nat} (hn : m < n) (k : Nat) {t : Tokenizer} (h : Holds env f m t) :
    ∃ t', t.fill env n k = some t' ∧ t'.pos = t.pos ∧ t'.tokens.length = t.tokens.length + k ∧ Holds env f m t' := by
  induction k generalizing t with
  | zero => exact ⟨t, rfl, rfl, rfl, h⟩
  | succ k ih =>
    obtain ⟨t1, e1, p1, l1, h1⟩ := h.more hn
    obtain ⟨t2, e2, p2, l2, h2⟩ := ih h1
    exact ⟨t2, by rw [Tokenizer.fill, e1]; exact e2, p2.trans p1, by omega, h2⟩

theorem Holds.lookahead {env : Env} {f : Nat → Token} {m n : Nat} (hn : m < n) (k : Nat) {t : Tokenizer} (h : Holds env f m t) :
    ∃ t', t.lookahead env n k = some (f (t.pos + k), t') ∧ t'.pos = t.pos ∧ Holds env f m t' := by
  obtain ⟨t', e, p, l, h'⟩ := h.fill hn (t.pos + k + 1 - t.tokens.length)
  refine ⟨t', ?_, p, h'⟩
  rw [Tokenizer.lookahead, e, Option.map_some, p, h'.read (t.pos + k) (by omega)]
  rfl

theorem Holds.lookaheadSc {env : Env} {f : Nat → Token} {m n : Nat} (hn : m < n) (j : Nat) {t : Tokenizer} (h : Holds env f m t) (k i : Nat)
    (hi : t.pos + i ≤ j) (hk : j < t.pos + i + k) (hj : f j ≠ .whitespace) :
    ∃ j' t', t.lookaheadSc env n k i = some (f j', t') ∧ t.pos + i ≤ j' ∧ (∀ l, t.pos + i ≤ l → l < j' → f l = .whitespace) ∧ f j' ≠ .whitespace ∧
      t'.pos = t.pos ∧ Holds env f m t' := by
  induction k generalizing t i with
  | zero => omega
  | succ k ih =>
    obtain ⟨t', e, p, h'⟩ := h.lookahead hn i
    rw [Tokenizer.lookaheadSc, e, Option.bind_some]
    simp only
    by_cases hw : f (t.pos + i) = .whitespace
    · have hne : t.pos + i ≠ j := by rintro rfl; exact hj hw
      obtain ⟨j', t2, e2, h1, h2, h3, p2, h4⟩ := ih h' (i + 1) (by omega) (by omega)
      rw [p] at h1 h2 p2
      refine ⟨j', t2, by rw [if_pos hw]; exact e2, by omega, ?_, h3, p2, h4⟩
      intro l hl hl'
      by_cases hli : l = t.pos + i
      · rw [hli]; exact hw
      · exact h2 l (by omega) hl'
    · exact ⟨t.pos + i, t', by rw [if_neg hw], by omega, fun l hl hl' => by omega, hw, p, h'⟩

theorem Holds.consume {env : Env} {f : Nat → Token} {m n : Nat} (hn : m < n) {t : Tokenizer} (h : Holds env f m t) :
    ∃ t', t.consume env n = some (some (f t.pos), t') ∧ t'.pos = t.pos + 1 ∧ Holds env f m t' := by
  have key : ∃ t1, (if (t.tokens.isEmpty || decide (t.tokens.length = t.pos)) = true then t.more env n else some t) = some t1 ∧ t1.pos = t.pos ∧
      t.pos < t1.tokens.length ∧ Holds env f m t1 := by
    have hp := h.pos
    split_ifs with hc
    · obtain ⟨t1, e1, p1, l1, h1⟩ := h.more hn
      exact ⟨t1, e1, p1, by omega, h1⟩
    · simp at hc
      exact ⟨t, rfl, rfl, by omega, h⟩
  obtain ⟨t1, e1, p1, l1, h1⟩ := key
  refine ⟨{ t1 with pos := t1.pos + 1 }, ?_, by simp [p1], ?_⟩
  · rw [Tokenizer.consume, e1, Option.map_some, p1, h1.read t.pos l1]
  · exact ⟨by simp; omega, h1.read, h1.rest, h1.short⟩

theorem Holds.reconsume {env : Env} {f : Nat → Token} {m : Nat} {t : Tokenizer} (h : Holds env f m t) :
    t.reconsume.pos = t.pos - 1 ∧ Holds env f m t.reconsume := by
  unfold Tokenizer.reconsume
  split_ifs with hp
  · exact ⟨rfl, ⟨by have := h.pos; simp; omega, h.read, h.rest, h.short⟩⟩
  · exact ⟨by omega, h⟩

theorem Holds.current {env : Env} {f : Nat → Token} {m : Nat} {t : Tokenizer} (h : Holds env f m t) :
    t.current = if t.pos = 0 then .eof else f (t.pos - 1) := by
  have hp := h.pos
  unfold Tokenizer.current
  split_ifs with h0 h1
  · rfl
  · omega
  · rw [h.read _ (by omega)]
    rfl

theorem plays {env : Env} {f : Nat → Token} {m n : Nat} (hn : m < n) (hf : ∀ i, m ≤ i → f i = .eof) (ops : List Op) {t : Tokenizer}
    (h : Holds env f m t) : ∃ outs, t.answers env n ops = some (outs.map some) ∧ Plays f t.pos ops outs := by
  induction ops generalizing t with
  | nil => exact ⟨[], rfl, .nil⟩
  | cons op ops ih =>
    cases op with
    | consume =>
      obtain ⟨t', e, p, h'⟩ := h.consume hn
      obtain ⟨outs, e2, hp⟩ := ih h'
      refine ⟨_ :: outs, ?_, .consume (by rw [← p]; exact hp)⟩
      simp [Tokenizer.answers, Tokenizer.ask, e, e2]
    | lookahead k =>
      obtain ⟨t', e, p, h'⟩ := h.lookahead hn k
      obtain ⟨outs, e2, hp⟩ := ih h'
      refine ⟨_ :: outs, ?_, .lookahead (by rw [← p]; exact hp)⟩
      simp [Tokenizer.answers, Tokenizer.ask, e, e2]
    | lookaheadSc k =>
      obtain ⟨j, t', e, h1, h2, h3, p, h'⟩ := h.lookaheadSc hn (t.pos + k + m) n k (by omega) (by omega) (by rw [hf _ (by omega)]; simp)
      obtain ⟨outs, e2, hp⟩ := ih h'
      refine ⟨_ :: outs, ?_, .lookaheadSc h1 h2 h3 (by rw [← p]; exact hp)⟩
      simp [Tokenizer.answers, Tokenizer.ask, e, e2]
    | reconsume =>
      obtain ⟨p, h'⟩ := h.reconsume
      obtain ⟨outs, e2, hp⟩ := ih h'
      refine ⟨outs, ?_, .reconsume (by rw [← p]; exact hp)⟩
      simp [Tokenizer.answers, Tokenizer.ask, e2]
    | current =>
      obtain ⟨outs, e2, hp⟩ := ih h
      refine ⟨_ :: outs, ?_, .current hp⟩
      simp [Tokenizer.answers, Tokenizer.ask, e2, h.current]

/-- **C98.** Whatever the parser asks of the tokenizer — the next token, a token further on, the next that is not white space, to take
one back — it is answered from one list, the tokens of the text with ends of text after it: what was seen ahead is what is read later, and
what was taken back is read again. No request panics or goes on for ever. -/
theorem C98_buffer (env : Env) (s : Str) (ts : List Token) (h : Yields env true s ts) (n : Nat) (hn : s.length < n) (ops : List Op) :
    ∃ outs, (Tokenizer.new s).answers env n ops = some (outs.map some) ∧ Plays (fun i => ts[i]?.getD .eof) 0 ops outs := by
  obtain ⟨us, _, _, hl, hu⟩ := C94_ends env true s
  have hts := hu ts h
  refine plays hn ?_ ops (t := Tokenizer.new s) ⟨Nat.le_refl _, by simp [Tokenizer.new], ⟨ts, h, by simp [Tokenizer.new]⟩, Nat.le_refl _⟩
  intro i hi
  rw [hts]
  by_cases he : i = us.length
  · subst he; simp
  · rw [List.getElem?_eq_none (by simp; omega)]
    rfl

/-- a token seen ahead, read, taken back and read again -/
example : ((Tokenizer.new "a b".toList).answers ascii 4 [.lookaheadSc 1, .consume, .reconsume, .consume, .current, .lookahead 5]) =
    some [some (.ident ['b']), some (.ident ['a']), some (.ident ['a']), some (.ident ['a']), some .eof] := by decide +kernel

end Verif.CssTok
