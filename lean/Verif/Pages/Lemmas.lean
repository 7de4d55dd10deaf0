import Verif.HtmlTok.Raw
import Verif.Pages.Spec

/-! # How the tokenizer reads the parts of a page -/

namespace Verif.Pages

open HtmlTok (Token Parser Content Env Run Tok Goes TGo Ready Printable flush print At RawKind)

theorem escChar_cases (c : Char) :
    (escChar c = [c] ∧ c ≠ '&' ∧ c ≠ '<') ∨
    ∃ run, escChar c = '&' :: (run ++ [';']) ∧ Map.look CharRef.tokenNamedChars (run ++ [';']) = some [c] := by
  obtain ⟨h1, _, h3, h4, h5⟩ := HtmlTok.names_escape
  unfold escChar
  split_ifs with a1 a2 a3 a4
  · subst a1; exact .inr ⟨"amp".toList, by decide, h1⟩
  · subst a2; exact .inr ⟨"lt".toList, by decide, h3⟩
  · subst a3; exact .inr ⟨"gt".toList, by decide, h4⟩
  · subst a4; exact .inr ⟨"quot".toList, by decide, h5⟩
  · exact .inl ⟨rfl, a1, a2⟩

theorem esc_cons (c : Char) (s : Str) : esc (c :: s) = escChar c ++ esc s := rfl

section
variable {env : Env} (hE : env.names = CharRef.tokenNamedChars) {p : Parser}
include hE

theorem go_esc (f : Bool) (s : Str) : ∀ (r co an av : Str) (as : List (Str × Str)) (cur : Option Token) (tmp ls : Str),
    ∃ tmp', TGo env f ⟨esc s ++ r, .data, co, an, av, as, cur, tmp, [], ls⟩
      ⟨r, .data, co ++ s, an, av, as, cur, tmp', [], ls⟩ := by
  induction s with
  | nil => intro r co an av as cur tmp ls; exact ⟨tmp, by simpa [esc] using TGo.rfl' _⟩
  | cons c s ih =>
    intro r co an av as cur tmp ls
    rw [esc_cons, List.append_assoc]
    have e2 : co ++ c :: s = co ++ [c] ++ s := by simp
    rw [e2]
    rcases escChar_cases c with ⟨h, h1, h2⟩ | ⟨run, h, hl⟩
    · obtain ⟨tmp', h'⟩ := ih r (co ++ [c]) an av as cur tmp ls
      refine ⟨tmp', TGo.head rfl ?_ h'⟩
      rw [h]
      simp [HtmlTok.step, h1, h2, Tok.consume]
    · obtain ⟨tmp', h'⟩ := ih r (co ++ [c]) an av as cur [] ls
      refine ⟨tmp', TGo.head (t' := ⟨run ++ [';'] ++ (esc s ++ r), .characterReferenceInData, co, an, av, as, cur, tmp, [], ls⟩)
        rfl ?_ (TGo.head rfl ?_ h')⟩
      · rw [h]; simp [HtmlTok.step, Tok.adv]
      · rw [← hE] at hl
        simp only [HtmlTok.step]
        rw [HtmlTok.charRef_named (HtmlTok.tableOk hE) hl]
        rfl

theorem ready_esc {got : List Token} (hg : .eof ∉ got) {s co rest : Str} {r : Run}
    (hr : Ready co (esc s ++ rest) got r) : ∃ r', Goes env p r r' ∧ Ready (co ++ s) rest got r' := by
  obtain ⟨cur, tmp, ls, rfl⟩ := hr
  obtain ⟨tmp', h⟩ := go_esc hE (p.foreign got) s rest co [] [] [] cur tmp ls
  exact ⟨_, h.goes hg, cur, tmp', ls, rfl⟩

omit hE in
/-- `w` is read as `toks`, wherever it comes between tags. -/
def Reads (env : Env) (p : Parser) (toks : List Token) (w : Str) : Prop :=
  ∀ (got : List Token) (r : Run) (rest : Str), .eof ∉ got → Ready [] (w ++ rest) got r →
    ∃ r', Goes env p r r' ∧ Ready [] rest (got ++ toks) r'

omit hE in
theorem Reads.nil : Reads env p [] [] := by
  intro got r rest _ hr
  exact ⟨r, Goes.refl r, by simpa using hr⟩

omit hE in
theorem Reads.append {t1 t2 : List Token} {w1 w2 : Str} (h1 : Reads env p t1 w1) (h2 : Reads env p t2 w2)
    (he : .eof ∉ t1) : Reads env p (t1 ++ t2) (w1 ++ w2) := by
  intro got r rest hg hr
  rw [List.append_assoc] at hr
  obtain ⟨r1, g1, hr1⟩ := h1 got r (w2 ++ rest) hg hr
  obtain ⟨r2, g2, hr2⟩ := h2 (got ++ t1) r1 rest (by simp [hg, he]) hr1
  exact ⟨r2, g1.trans g2, by simpa using hr2⟩

omit hE in
/-- A tag that does not change how the tokenizer reads on. -/
def Plain (p : Parser) (k : Token) : Prop := Printable k ∧ (∀ s, k ≠ .text s) ∧ ∀ g, p.switch (g ++ [k]) = none

omit hE in
theorem Plain.ne_eof {k : Token} (h : Plain p k) : k ≠ .eof := by rintro rfl; exact h.1

theorem reads_pair {s : Str} {k : Token} (hk : Plain p k) : Reads env p (txt s ++ [k]) (esc s ++ print k) := by
  intro got r rest hg hr
  rw [List.append_assoc] at hr
  obtain ⟨r1, g1, hr1⟩ := ready_esc hE (p := p) hg hr
  obtain ⟨r2, g2, hr2⟩ := HtmlTok.ready_tag hE p hg hk.1 hk.2.1 hr1 (hk.2.2 _)
  refine ⟨r2, g1.trans g2, ?_⟩
  have e : flush ([] ++ s) = txt s := by simp [flush, txt]
  rw [e] at hr2
  simpa using hr2

theorem reads_frame (l : List (Str × Token)) (hl : ∀ x ∈ l, Plain p x.2) :
    Reads env p (frame l) (l.flatMap (fun x => esc x.1 ++ print x.2)) := by
  induction l with
  | nil => exact Reads.nil
  | cons x l ih =>
    have h1 := reads_pair hE (s := x.1) (hl x (by simp))
    have h2 := ih (fun y hy => hl y (by simp [hy]))
    have := h1.append h2 (by
      rw [List.mem_append, not_or]
      refine ⟨?_, ?_⟩
      · unfold txt; split <;> simp
      · simp only [List.mem_singleton]
        exact fun h => (hl x (by simp)).ne_eof h.symm)
    simpa [frame] using this

/-- The end tag of raw text. -/
theorem raw_close (k : RawKind) {got : List Token} (hg : .eof ∉ got) {n : Str} (h0 : n ≠ [])
    (hn : ∀ c ∈ n, 'a' ≤ c ∧ c ≤ 'z') (hs : p.switch = p.switch) (co rest : Str) (cur : Option Token) (tmp : Str) :
    ∃ r', Goes env p ⟨At k.base ('<' :: '/' :: (n ++ '>' :: rest)) co cur tmp n, got⟩ r' ∧
      Ready [] rest (got ++ flush co ++ [.endTag n]) r' := by
  have ha : ∀ c ∈ n, HtmlTok.isAlpha c = true := fun c hc => HtmlTok.lower_alpha (hn c hc)
  have hl : n.map HtmlTok.toLower = n := by
    conv_rhs => rw [← List.map_id n]
    refine List.map_congr_left fun c hc => ?_
    have hu : HtmlTok.isUpper c = false := by
      have := (hn c hc).1
      rw [Char.le_def, UInt32.le_iff_toNat_le] at this
      have h97 : 97 ≤ c.toNat := this
      simp [HtmlTok.isUpper]
      omega
    simp [HtmlTok.toLower, hu]
  have h1 := HtmlTok.raw_end (env := env) (n := n) (p.foreign got) k h0 ha ('>' :: rest) co cur tmp
  rw [hl] at h1
  have h2 : HtmlTok.step env (p.foreign got) (At k.en ('>' :: rest) co (some (.endTag n)) n n) =
      ⟨rest, .data, [], [], [], [], none, n, flush co ++ [.endTag n], []⟩ := by
    by_cases hco : co = [] <;> cases k <;>
      simp [RawKind.en, HtmlTok.step, Tok.endTagNameIn, HtmlTok.isWs, Tok.appropriate, Tok.endName, Tok.adv, Tok.emitCur, Tok.emit, flush, hco]
  exact ⟨_, HtmlTok.emit_run hg h1 rfl h2, none, n, [], rfl⟩

/-- An element whose text is raw. -/
theorem reads_raw (k : RawKind) {n : Str} (h0 : n ≠ []) (hn : ∀ c ∈ n, 'a' ≤ c ∧ c ≤ 'z')
    (ha : Printable (.startTag n false [])) (hs : ∀ g, p.switch (g ++ [.startTag n false []]) = some k.content)
    {s : Str} (h1 : HtmlTok.NoEndTag n s) (h2 : k.Ok s) (hz : Char.ofNat 0 ∉ s) :
    Reads env p ([.startTag n false []] ++ txt s ++ [.endTag n])
      (print (.startTag n false []) ++ s ++ print (.endTag n)) := by
  intro got r rest hg hr
  have e2 : print (.endTag n) = '<' :: '/' :: (n ++ ['>']) := by simp [HtmlTok.print_end]
  rw [e2] at hr
  simp only [List.append_assoc, List.cons_append, List.nil_append] at hr
  obtain ⟨tmp, g1⟩ := HtmlTok.start_run hE p hg ha.1 ha.2.1 ha.2.2 hr
  have e0 : flush ([] : Str) = [] := rfl
  have e1 : k.content.state = k.base := by cases k <;> rfl
  simp only [e0, List.append_nil, HtmlTok.afterToken, hs, Option.elim_some, e1] at g1
  have hg' : .eof ∉ got ++ [Token.startTag n false []] := by simp [hg]
  obtain ⟨cur', tmp', g2⟩ := HtmlTok.raw_text (env := env) (p.foreign (got ++ [.startTag n false []])) k (n := n)
    (n ++ '>' :: rest) s.length s [] none tmp (Nat.le_refl _) h1 h2
  obtain ⟨r', g3, h3⟩ := raw_close hE (p := p) k (got := got ++ [.startTag n false []]) hg' h0 hn rfl
    (HtmlTok.noNul s) rest cur' tmp'
  refine ⟨r', (g1.trans (g2.goes hg')).trans g3, ?_⟩
  rw [HtmlTok.noNul_id hz] at h3
  simpa [flush, txt] using h3

end

/-- A whole page. -/
theorem yields_of_reads {env : Env} {p : Parser} {toks : List Token} {w : Str} (h : Reads env p toks w)
    (he : .eof ∉ toks) : HtmlTok.Yields env p w .data (toks ++ [.eof]) := by
  obtain ⟨r1, g1, hr1⟩ := h [] (.start w .data) [] (by simp) ⟨none, [], [], by simp; rfl⟩
  obtain ⟨r2, g2, h2⟩ := HtmlTok.ready_eof (env := env) p (by simpa using he) hr1
  obtain ⟨n, hn⟩ := g1.trans g2
  refine ⟨n, ?_, by simp⟩
  rw [hn, h2]
  simp [flush]

end Verif.Pages
