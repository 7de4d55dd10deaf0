import Verif.HtmlTok.Shape
import Verif.HtmlTok.Props

/-!
# C92: what every token looks like
-/

namespace Verif.HtmlTok

/-- what holds of a run at every point -/
structure RunShape (r : Run) : Prop where
  good : Good r.tok
  solid : r.tok.queue ≠ [] → Solid r.tok.cur
  ok : ∀ k ∈ r.got ++ r.tok.queue, TokenOk k
  apart : ∀ a b s s', r.got ++ r.tok.queue ≠ a ++ .text s :: .text s' :: b
  last : ∀ a s, r.got ++ r.tok.queue ≠ a ++ [.text s]

theorem append_split {α : Type} {x y a b : List α} {u v : α} (h : x ++ y = a ++ u :: v :: b) :
    (∃ b', x = a ++ u :: v :: b') ∨ (x = a ++ [u] ∧ y = v :: b) ∨ (∃ a', y = a' ++ u :: v :: b) := by
  rw [List.append_eq_append_iff] at h
  rcases h with ⟨a', h1, h2⟩ | ⟨c', h1, h2⟩
  · exact .inr (.inr ⟨a', h2⟩)
  · cases c' with
    | nil => exact .inr (.inr ⟨[], by simpa using h2.symm⟩)
    | cons w c' =>
      simp only [List.cons_append, List.cons.injEq] at h2
      obtain ⟨rfl, h2⟩ := h2
      cases c' with
      | nil => exact .inr (.inl ⟨h1, by simpa using h2.symm⟩)
      | cons w' c' =>
        simp only [List.cons_append, List.cons.injEq] at h2
        obtain ⟨rfl, h2⟩ := h2
        exact .inl ⟨c', h1⟩

theorem Good.after {t : Tok} (h : Good t) (hs : Solid t.cur) (p : Parser) (got q : List Token) (k : Token) :
    Good { t with queue := q, state := afterToken p got t.state k } := by
  refine ⟨h.attrs, h.name, h.cur, fun _ => hs, fun _ => .inl hs, fun hd => h.doc ?_⟩
  revert hd
  simp only [afterToken]
  split
  · cases p.switch got with
    | none => exact id
    | some c => cases c <;> exact fun h => absurd h (by simp [Content.state])
  · exact id

theorem RunShape.step {env : Env} {p : Parser} {r : Run} (h : RunShape r) : RunShape (r.step env p) := by
  unfold Run.step
  split_ifs with hd
  · exact h
  split
  · rename_i k q hq
    have e : r.got ++ r.tok.queue = r.got ++ [k] ++ q := by rw [hq]; simp
    have hs := h.solid (by rw [hq]; simp)
    refine ⟨h.good.after hs p _ q k, fun _ => hs, ?_, ?_, ?_⟩
    · have := h.ok; rw [e] at this; exact this
    · have := h.apart; rw [e] at this; exact this
    · have := h.last; rw [e] at this; exact this
  · rename_i hq
    obtain ⟨hg, hQ⟩ := step_shape env r.tok.state (p.foreign r.got) r.tok hq rfl h.good
    have hok := h.ok
    have hap := h.apart
    have hla := h.last
    rw [hq, List.append_nil] at hok hap hla
    rcases hQ with hQ | ⟨hs, s, k, hQ, hk, hk'⟩
    · refine ⟨hg, fun hne => absurd hQ hne, ?_, ?_, ?_⟩ <;> simp only [hQ, List.append_nil]
      · exact hok
      · exact hap
      · exact hla
    · refine ⟨hg, fun _ => hs, ?_, ?_, ?_⟩ <;> simp only [hQ]
      · intro x hx
        rw [List.mem_append] at hx
        rcases hx with hx | hx
        · exact hok x hx
        · rw [List.mem_append, List.mem_singleton] at hx
          rcases hx with hx | rfl
          · by_cases h0 : s = []
            · simp [h0] at hx
            · simp only [h0, if_false, List.mem_singleton] at hx
              subst hx
              exact h0
          · exact hk'
      · intro a b x y hh
        rcases append_split hh with ⟨b', h1⟩ | ⟨h1, _⟩ | ⟨a', h1⟩
        · exact hap a b' x y h1
        · exact hla a x h1
        · by_cases h0 : s = []
          · simp only [h0, if_true, List.nil_append] at h1
            have := congrArg List.length h1
            simp at this
            omega
          · simp only [h0, if_false, List.cons_append, List.nil_append] at h1
            have hl := congrArg List.length h1
            simp only [List.length_cons, List.length_nil, List.length_append] at hl
            have ha : a' = [] := List.eq_nil_of_length_eq_zero (by omega)
            have hb : b = [] := List.eq_nil_of_length_eq_zero (by omega)
            subst ha hb
            simp only [List.nil_append, List.cons.injEq, and_true] at h1
            exact hk y h1.2
      · intro a x hh
        rw [← List.append_assoc] at hh
        have := (List.append_inj' hh rfl).2
        simp only [List.cons.injEq, and_true] at this
        exact hk x this

theorem RunShape.start (input : Str) (c : Content) : RunShape (.start input c) := by
  have : inName c.state = false ∧ c.state ≠ .doctypeName := by cases c <;> simp [inName, Content.state]
  refine ⟨⟨⟨by simp [Run.start, Tok.new], by simp [Run.start, Tok.new]⟩, by simp [Run.start, Tok.new], trivial, fun _ => trivial,
    fun _ => .inl trivial, fun _ => trivial⟩, fun _ => trivial, ?_, ?_, ?_⟩ <;> simp [Run.start, Tok.new]

/-- **C92**: whatever the input, the names of tags and attributes in the tokens are as the rest of the engine expects them — no
ASCII capitals, white space, `/`, `>` or NUL, tag names starting with a letter, attribute names never empty — and no attribute
comes twice in a tag; text tokens are never empty and never follow each other. -/
theorem C92_tokens (env : Env) (p : Parser) (input : Str) (c : Content) (toks : List Token) (h : Yields env p input c toks) :
    (∀ k ∈ toks, TokenOk k) ∧ ∀ a b s s', toks ≠ a ++ .text s :: .text s' :: b := by
  have hall : ∀ n : Nat, RunShape ((Run.step env p)^[n] (.start input c)) := by
    intro n
    induction n with
    | zero => exact .start input c
    | succ n ih => rw [Function.iterate_succ_apply']; exact ih.step
  obtain ⟨n, rfl, _⟩ := h
  have hr := hall n
  refine ⟨fun k hk => hr.ok k (List.mem_append_left _ hk), fun a b s s' hh => hr.apart a (b ++ ((Run.step env p)^[n] (.start input c)).tok.queue) s s' ?_⟩
  rw [hh, List.append_assoc]
  rfl

/-- the tokens of `<P A=1 a=2 =b c/d>x<` -/
example : Yields demoEnv demo "<P A=1 a=2 =b c/d>x<".toList .data
    [.startTag ['p'] false [(['a'], ['1']), ("=b".toList, []), (['c'], []), (['d'], [])], .text ['x', '<'], .eof] :=
  ⟨60, by decide +kernel, by decide +kernel⟩

end Verif.HtmlTok
