import Verif.HtmlTok.Run
import Verif.ByteStream.Spec

/-!
# C89 and C90: the tokenizer ends, and does what the HTML standard says
-/

namespace Verif.HtmlTok

open Standard (Machine Step)

/-- **C89**: whatever the input, and whatever the parser asks for, the tokenizer ends: it hands out one list of tokens, with one
end-of-file token, which is the last. -/
theorem C89_ends (env : Env) (hT : CharRef.TableOk env.names) (p : Parser) (input : Str) (c : Content) :
    ∃ toks, Yields env p input c (toks ++ [.eof]) ∧ .eof ∉ toks ∧ ∀ toks', Yields env p input c toks' → toks' = toks ++ [.eof] := by
  obtain ⟨n, hn⟩ := run_ends (p := p) hT _ (RunOk.start input c)
  rcases (iterate_ok env p input c n).eof with h | ⟨g, hg, hng, _⟩
  · rw [not_done h] at hn; simp at hn
  · have hy : Yields env p input c (g ++ [.eof]) := ⟨n, hg, by simp⟩
    exact ⟨g, hy, hng, fun toks' h => yields_unique h hy⟩

theorem yields_reaches {env : Env} (hT : CharRef.TableOk env.names) (p : Parser) {input : Str} (c : Content)
    (hl : NoLookalikes env input) :
    ∃ toks m, Yields env p input c toks ∧ Standard.Reaches env.names p input c m ∧
      ((m.stopped = true ∧ m.out = toks) ∨ (m.endTagWithAttributes = true ∧ m.out <+: toks)) := by
  obtain ⟨n, hn⟩ := run_ends (p := p) hT _ (RunOk.start input c)
  obtain ⟨m, hm, hb⟩ := beside_iterate (p := p) hT hl c n
  exact ⟨_, m, ⟨n, rfl, by simpa [Run.done] using hn⟩, hm,
    beside_done (iterate_ok env p input c n) ((EofLast.start input c).steps hm) hn hb⟩

theorem collapse_eq {raw : Str} (h : '\r' ∉ ByteStream.Spec.collapse raw) :
    ByteStream.Spec.collapse raw = Standard.normalizeNewlines raw := by
  induction raw using ByteStream.Spec.collapse.induct with
  | case1 => rfl
  | case2 c =>
    simp only [ByteStream.Spec.collapse, List.mem_singleton] at h
    simp [ByteStream.Spec.collapse, Standard.normalizeNewlines, Ne.symm h]
  | case3 c d rest hc ih =>
    obtain ⟨rfl, rfl⟩ := hc
    simp only [ByteStream.Spec.collapse, and_self, if_true, List.mem_cons, not_or] at h
    simp [ByteStream.Spec.collapse, Standard.normalizeNewlines, ih h.2]
  | case4 c d rest hc ih =>
    simp only [ByteStream.Spec.collapse, hc, if_false, List.mem_cons, not_or] at h
    simp [ByteStream.Spec.collapse, Standard.normalizeNewlines, Ne.symm h.1, ih h.2]

/-- **C90** (partial: inputs with a lone CR or with a look-alike of `DOCTYPE`, `PUBLIC` or `SYSTEM` are left out, and so is what
follows an end tag with attributes): whenever the tokenizer of the HTML standard, fed the same document and asked for the same
states by the same parser, comes to its end, the engine's hands out exactly the tokens the standard's emits. -/
theorem C90_standard_partial (env : Env) (hT : CharRef.TableOk env.names) (p : Parser) (raw : Str) (c : Content)
    (hcr : '\r' ∉ ByteStream.Spec.collapse raw) (hl : NoLookalikes env (ByteStream.Spec.collapse raw)) (m : Machine)
    (hm : Standard.Reaches env.names p (Standard.normalizeNewlines raw) c m) (hs : m.stopped = true)
    (hf : m.endTagWithAttributes = false) : Yields env p (ByteStream.Spec.collapse raw) c m.out := by
  obtain ⟨toks, m', hy, hm', h⟩ := yields_reaches hT p c hl
  rw [← collapse_eq hcr] at hm
  have hmm := steps_to_stopped hT hm' hm hs
  rcases h with ⟨h1, rfl⟩ | ⟨h1, _⟩
  · rw [steps_stopped h1 hmm]; exact hy
  · rw [steps_flag h1 hmm] at hf; simp at hf

/-- **C90** (partial, see above): the standard's tokenizer does come to its end, or to an end tag with attributes; up to there
the engine has handed out the same tokens. -/
theorem C90_as_far_partial (env : Env) (hT : CharRef.TableOk env.names) (p : Parser) (raw : Str) (c : Content)
    (hcr : '\r' ∉ ByteStream.Spec.collapse raw) (hl : NoLookalikes env (ByteStream.Spec.collapse raw)) :
    ∃ toks m, Yields env p (ByteStream.Spec.collapse raw) c toks ∧
      Standard.Reaches env.names p (Standard.normalizeNewlines raw) c m ∧
      ((m.stopped = true ∧ m.out = toks) ∨ (m.endTagWithAttributes = true ∧ m.out <+: toks)) := by
  rw [← collapse_eq hcr]
  exact yields_reaches hT p c hl

/-! ## concrete runs -/

/-- the standard's machine, run for as long as no reference comes up -/
def Standard.run (p : Parser) (m : Machine) : Machine :=
  if m.stopped = true ∨ m.state = .characterReference then m else Standard.act p m

theorem Standard.run_reaches (T : List (Str × Str)) (p : Parser) (input : Str) (c : Content) (n : Nat) :
    Standard.Reaches T p input c ((Standard.run p)^[n] (Standard.start input c)) := by
  induction n with
  | zero => exact .refl
  | succ n ih =>
    rw [Function.iterate_succ_apply']
    unfold Standard.run
    split_ifs with h
    · exact ih
    · simp only [not_or, Bool.not_eq_true] at h
      exact ih.tail (.state h.1 h.2)

/-- a parser that puts the tokenizer into the states for `title`, `style`, `script` and `plaintext` -/
def demo : Parser where
  switch got := match got.getLast? with
    | some (.startTag n _ _) =>
      if n = "title".toList then some .rcdata
      else if n = "style".toList then some .rawtext
      else if n = "script".toList then some .script
      else if n = "plaintext".toList then some .plaintext
      else none
    | _ => none
  foreign _ := false

/-- the engine's table of names, and Unicode upper-casing of the two characters that matter -/
def demoEnv : Env where
  names := CharRef.tokenNamedChars
  upper c := if c = Char.ofNat 0x131 then ['I'] else if c = Char.ofNat 0x17F then ['S'] else [c]

theorem demo_table : CharRef.TableOk demoEnv.names := CharRef.C51_table_ok

/-- `ByteStream.Spec.collapse` and the hypotheses of C90 on a document with a DOCTYPE, attributes, a comment, a title and a script -/
def demoDoc : Str :=
  "<!DOCTYPE html>\r\n<p Class=a class='b' hidden>x</p ><!-- c --><title>a<b></title><script>1<2</script><br/>".toList

theorem noLookalikes_of {env : Env} {s : Str}
    (h : ∀ w ∈ words, ∀ n ≤ s.length, ((s.drop n).take w.length).flatMap env.up = w → Standard.startsWith w (s.drop n)) :
    NoLookalikes env s := by
  rintro w hw t ⟨u, rfl⟩ he
  have := h w hw u.length (by simp)
  simpa using this (by simpa using he)

set_option maxRecDepth 10000 in
example : '\r' ∉ ByteStream.Spec.collapse demoDoc ∧ NoLookalikes demoEnv (ByteStream.Spec.collapse demoDoc) ∧
    ((Standard.run demo)^[200] (Standard.start (Standard.normalizeNewlines demoDoc) .data)).stopped = true ∧
    ((Standard.run demo)^[200] (Standard.start (Standard.normalizeNewlines demoDoc) .data)).endTagWithAttributes = false ∧
    ((Standard.run demo)^[200] (Standard.start (Standard.normalizeNewlines demoDoc) .data)).out =
      [.doctype (some "html".toList) false none none, .text ['\n'],
       .startTag ['p'] false [("class".toList, ['a']), ("hidden".toList, [])], .text ['x'], .endTag ['p'],
       .comment " c ".toList, .startTag "title".toList false [], .text "a<b>".toList, .endTag "title".toList,
       .startTag "script".toList false [], .text "1<2".toList, .endTag "script".toList,
       .startTag "br".toList true [], .eof] := by
  refine ⟨by decide +kernel, noLookalikes_of (by decide +kernel), by decide +kernel, by decide +kernel, by decide +kernel⟩

/-- **C90 violated**: an end tag's attributes go to the next start tag. -/
theorem C90_end_tag_attributes_violated :
    ∃ (raw : Str) (m : Machine), '\r' ∉ raw ∧ NoLookalikes demoEnv raw ∧
      Standard.Reaches demoEnv.names demo raw .data m ∧ m.stopped = true ∧
      m.out = [.endTag ['p'], .startTag ['b'] false [("id".toList, ['y'])], .eof] ∧
      Yields demoEnv demo raw .data
        [.endTag ['p'], .startTag ['b'] false [("class".toList, ['x']), ("id".toList, ['y'])], .eof] := by
  refine ⟨"</p class=x><b id=y>".toList, _, by decide +kernel, noLookalikes_of (by decide +kernel),
    Standard.run_reaches _ demo _ .data 40, by decide +kernel, by decide +kernel, 60, by decide +kernel, by decide +kernel⟩

/-- **C90 violated**: with a dotless ı, `PUBLıC` is taken for the keyword `PUBLIC`. -/
theorem C90_lookalike_violated :
    ∃ (raw : Str) (m : Machine), '\r' ∉ raw ∧
      Standard.Reaches demoEnv.names demo raw .data m ∧ m.stopped = true ∧ m.endTagWithAttributes = false ∧
      m.out = [.doctype (some "html".toList) true none none, .eof] ∧
      Yields demoEnv demo raw .data [.doctype (some "html".toList) false (some ['x']) none, .eof] := by
  refine ⟨"<!DOCTYPE html PUBL".toList ++ [Char.ofNat 0x131] ++ "C \"x\">".toList, _, by decide +kernel,
    Standard.run_reaches _ demo _ .data 60, by decide +kernel, by decide +kernel, by decide +kernel, 60, by decide +kernel,
    by decide +kernel⟩

/-- **C90 violated**: a lone CR does not end a tag's name. -/
theorem C90_lone_cr_violated :
    ∃ (raw : Str) (m : Machine), NoLookalikes demoEnv (ByteStream.Spec.collapse raw) ∧
      Standard.Reaches demoEnv.names demo (Standard.normalizeNewlines raw) .data m ∧ m.stopped = true ∧
      m.endTagWithAttributes = false ∧ m.out = [.startTag ['p'] false [(['a'], [])], .eof] ∧
      Yields demoEnv demo (ByteStream.Spec.collapse raw) .data [.startTag "p\ra".toList false [], .eof] := by
  refine ⟨"<p\ra>".toList, _, noLookalikes_of (by decide +kernel), Standard.run_reaches _ demo _ .data 40, by decide +kernel,
    by decide +kernel, by decide +kernel, 40, by decide +kernel, by decide +kernel⟩

/-- C89 has its hypothesis met: `demo_table` -/
example : ∃ toks, Yields demoEnv demo demoDoc .rcdata (toks ++ [.eof]) :=
  (C89_ends demoEnv demo_table demo demoDoc .rcdata).imp fun _ h => h.1

end Verif.HtmlTok
