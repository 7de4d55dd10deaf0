import Verif.HtmlTok.Props3
import Verif.HtmlTok.Shape

/-!
# Raw text
-/

namespace Verif.HtmlTok

/-- what is left in `s` when read as raw text -/
theorem noNul_append (s t : Str) : noNul (s ++ t) = noNul s ++ noNul t := by simp [noNul]

theorem noNul_id {s : Str} (h : Char.ofNat 0 ∉ s) : noNul s = s := by
  induction s with
  | nil => rfl
  | cons c s ih =>
    simp only [List.mem_cons, not_or] at h
    simp only [noNul, List.map_cons, if_neg (Ne.symm h.1), List.cons.injEq, true_and]
    exact ih h.2

/-- the states in which raw text is read, and those inside a possible end tag -/
inductive RawKind
  | rawtext | rcdata | script

def RawKind.content : RawKind → Content
  | .rawtext => .rawtext
  | .rcdata => .rcdata
  | .script => .script

def RawKind.base : RawKind → State
  | .rawtext => .rawtext
  | .rcdata => .rcdata
  | .script => .scriptData

def RawKind.lt : RawKind → State
  | .rawtext => .rawtextLessThanSign
  | .rcdata => .rcdataLessThanSign
  | .script => .scriptDataLessThanSign

def RawKind.eo : RawKind → State
  | .rawtext => .rawtextEndTagOpen
  | .rcdata => .rcdataEndTagOpen
  | .script => .scriptDataEndTagOpen

def RawKind.en : RawKind → State
  | .rawtext => .rawtextEndTagName
  | .rcdata => .rcdataEndTagName
  | .script => .scriptDataEndTagName

/-- what the text may not hold -/
def RawKind.Ok (k : RawKind) (s : Str) : Prop :=
  match k with
  | .rawtext => True
  | .rcdata => '&' ∉ s
  | .script => ¬ "<!--".toList <:+: s

theorem RawKind.Ok.infix {k : RawKind} {s t : Str} (h : k.Ok t) (hs : s <:+: t) : k.Ok s := by
  cases k with
  | rawtext => trivial
  | rcdata => exact fun hm => h (hs.subset hm)
  | script => exact fun hm => h (hm.trans hs)

theorem NoEndTag.suffix {n s t : Str} (h : NoEndTag n t) (hs : s <:+ t) : NoEndTag n s := by
  obtain ⟨u, rfl⟩ := hs
  intro a w d b hh hw
  exact h (u ++ a) w d b (by rw [hh]; simp) hw

section
variable {env : Env} (f : Bool) (k : RawKind) {n : Str}

/-- a tokenizer between things in raw text -/
abbrev At (s : State) (rest co : Str) (cur : Option Token) (tmp n : Str) : Tok := ⟨rest, s, co, [], [], [], cur, tmp, [], n⟩

theorem raw_char {c : Char} (hc : c ≠ '<') (ha : k.Ok [c]) (r co : Str) (cur : Option Token) (tmp : Str) :
    TGo env f (At k.base (c :: r) co cur tmp n) (At k.base r (co ++ noNul [c]) cur tmp n) := by
  refine TGo.one rfl ?_
  have ha' : k = .rcdata → c ≠ '&' := by rintro rfl rfl; exact ha (by simp)
  by_cases h0 : c = Char.ofNat 0
  · subst h0
    cases k <;> simp [RawKind.base, step, Tok.consume, noNul, repl]
  · cases k <;> simp_all [RawKind.base, step, Tok.consume, noNul]

theorem raw_lt (r co : Str) (cur : Option Token) (tmp : Str) :
    TGo env f (At k.base ('<' :: r) co cur tmp n) (At k.lt r co cur tmp n) := by
  refine TGo.one rfl ?_
  cases k <;> simp [RawKind.base, RawKind.lt, step, Tok.adv]

theorem raw_slash (r co : Str) (cur : Option Token) (tmp : Str) :
    TGo env f (At k.lt ('/' :: r) co cur tmp n) (At k.eo r co cur [] n) := by
  refine TGo.one rfl ?_
  cases k <;> simp [RawKind.eo, RawKind.lt, step]

theorem raw_back {c : Char} (h1 : c ≠ '/') (h2 : k.base = .scriptData → c ≠ '!') (r co : Str) (cur : Option Token) (tmp : Str) :
    TGo env f (At k.lt (c :: r) co cur tmp n) (At k.base (c :: r) (co ++ ['<']) cur tmp n) := by
  refine TGo.one rfl ?_
  cases k <;> simp_all [RawKind.base, RawKind.lt, step, Tok.consume, Tok.goto]

theorem raw_open_back {c : Char} (h : isAlpha c = false) (r co : Str) (cur : Option Token) (tmp : Str) :
    TGo env f (At k.eo (c :: r) co cur tmp n) (At k.base (c :: r) (co ++ ['<', '/']) cur tmp n) := by
  refine TGo.one rfl ?_
  cases k <;> simp [RawKind.base, RawKind.eo, step, Tok.consume, Tok.goto, Tok.endTagOpenIn, h]

theorem alpha_not_ws' {c : Char} (h : isAlpha c = true) : isWs c = false ∧ c ≠ '/' ∧ c ≠ '>' ∧ c ≠ Char.ofNat 0 := by
  have key : ∀ m < 128, isAlpha (Char.ofNat m) = true → isWs (Char.ofNat m) = false ∧ Char.ofNat m ≠ '/' ∧ Char.ofNat m ≠ '>' ∧
      Char.ofNat m ≠ Char.ofNat 0 := by decide +kernel
  have hl : c.toNat < 128 := by
    simp only [isAlpha, Bool.or_eq_true, Bool.and_eq_true, decide_eq_true_eq] at h
    omega
  simpa using key c.toNat hl (by simpa using h)

theorem raw_alpha {c : Char} (h : isAlpha c = true) (r co m tmp : Str) :
    TGo env f (At k.en (c :: r) co (some (.endTag m)) tmp n) (At k.en r co (some (.endTag (m ++ [toLower c]))) (tmp ++ [c]) n) := by
  obtain ⟨h1, h2, h3, _⟩ := alpha_not_ws' h
  refine TGo.one rfl ?_
  cases k <;> simp [RawKind.en, step, Tok.endTagNameIn, Tok.addName, h, h1, h2, h3]

theorem raw_open {c : Char} (h : isAlpha c = true) (r co : Str) (cur : Option Token) :
    TGo env f (At k.eo (c :: r) co cur [] n) (At k.en r co (some (.endTag [toLower c])) [c] n) := by
  have key : ∀ k' : RawKind, k'.eo = .scriptDataEndTagOpen ∨
      TGo env f (At k'.eo (c :: r) co cur [] n) (At k'.en (c :: r) co (some (.endTag [])) [] n) := by
    intro k'
    cases k'
    · exact .inr (TGo.one rfl (by simp [RawKind.eo, RawKind.en, step, Tok.endTagOpenIn, h]))
    · exact .inr (TGo.one rfl (by simp [RawKind.eo, RawKind.en, step, Tok.endTagOpenIn, h]))
    · exact .inl rfl
  rcases key k with hk | hk
  · cases k <;> simp only [RawKind.eo, reduceCtorEq] at hk
    exact TGo.one rfl (by simp [RawKind.eo, RawKind.en, step, h])
  · exact hk.trans (by simpa using raw_alpha (env := env) (n := n) f k h r co [] [])

theorem raw_name (w : Str) : ∀ (m tmp r co : Str), (∀ c ∈ w, isAlpha c = true) →
    TGo env f (At k.en (w ++ r) co (some (.endTag m)) tmp n) (At k.en r co (some (.endTag (m ++ w.map toLower))) (tmp ++ w) n) := by
  induction w with
  | nil => intro m tmp r co _; simpa using TGo.rfl' _
  | cons c w ih =>
    intro m tmp r co h
    have := ih (m ++ [toLower c]) (tmp ++ [c]) r co (fun d hd => h d (by simp [hd]))
    refine (raw_alpha f k (h c (by simp)) (w ++ r) co m tmp).trans ?_
    simpa using this

/-- `</` and letters -/
theorem raw_end {w : Str} (h0 : w ≠ []) (hw : ∀ c ∈ w, isAlpha c = true) (r co : Str) (cur : Option Token) (tmp : Str) :
    TGo env f (At k.base ('<' :: '/' :: (w ++ r)) co cur tmp n) (At k.en r co (some (.endTag (w.map toLower))) w n) := by
  cases w with
  | nil => exact absurd rfl h0
  | cons c w =>
    refine ((raw_lt f k _ co cur tmp).trans (raw_slash f k _ co cur tmp)).trans ?_
    refine (raw_open f k (hw c (by simp)) (w ++ r) co cur).trans ?_
    simpa using raw_name (env := env) (n := n) f k w [toLower c] [c] r co (fun d hd => hw d (by simp [hd]))

theorem raw_name_back {d : Char} (hd : isAlpha d = false) {m : Str}
    (h : n = m → isWs d = false ∧ d ≠ '/' ∧ d ≠ '>') (r co tmp : Str) :
    TGo env f (At k.en (d :: r) co (some (.endTag m)) tmp n) (At k.base (d :: r) (co ++ ['<', '/'] ++ tmp) (some (.endTag m)) [] n) := by
  refine TGo.one rfl ?_
  by_cases hn : n = m
  · obtain ⟨h1, h2, h3⟩ := h hn
    cases k <;> simp [RawKind.en, RawKind.base, step, Tok.endTagNameIn, Tok.transitionTo, hd, h1, h2, h3]
  · cases k <;> simp [RawKind.en, RawKind.base, step, Tok.endTagNameIn, Tok.transitionTo, Tok.appropriate, Tok.endName, hd, hn]

/-- raw text up to the end tag -/
theorem raw_text (r : Str) (N : Nat) : ∀ (s co : Str) (cur : Option Token) (tmp : Str), s.length ≤ N → NoEndTag n s → k.Ok s →
    ∃ cur' tmp', TGo env f (At k.base (s ++ '<' :: '/' :: r) co cur tmp n)
      (At k.base ('<' :: '/' :: r) (co ++ noNul s) cur' tmp' n) := by
  induction N with
  | zero =>
    intro s co cur tmp hN _ _
    have : s = [] := List.eq_nil_of_length_eq_zero (by omega)
    subst this
    exact ⟨cur, tmp, by simpa [noNul] using TGo.rfl' _⟩
  | succ N ih =>
    intro s co cur tmp hN hE hO
    cases s with
    | nil => exact ⟨cur, tmp, by simpa [noNul] using TGo.rfl' _⟩
    | cons c s =>
      simp only [List.length_cons] at hN
      have next : ∀ (u v : Str) (cur0 : Option Token) (tmp0 : Str), c :: s = u ++ v → u ≠ [] →
          TGo env f (At k.base (c :: s ++ '<' :: '/' :: r) co cur tmp n)
            (At k.base (v ++ '<' :: '/' :: r) (co ++ noNul u) cur0 tmp0 n) →
          ∃ cur' tmp', TGo env f (At k.base (c :: s ++ '<' :: '/' :: r) co cur tmp n)
            (At k.base ('<' :: '/' :: r) (co ++ noNul (c :: s)) cur' tmp' n) := by
        intro u v cur0 tmp0 e hu hg
        have hl := congrArg List.length e
        simp only [List.length_cons, List.length_append] at hl
        have : 0 < u.length := List.length_pos_iff.2 hu
        have hsuf : v <:+ c :: s := ⟨u, e.symm⟩
        obtain ⟨cur', tmp', h'⟩ := ih v (co ++ noNul u) cur0 tmp0 (by omega) (hE.suffix hsuf) (hO.infix hsuf.isInfix)
        refine ⟨cur', tmp', hg.trans ?_⟩
        rw [e, noNul_append, ← List.append_assoc]
        exact h'
      by_cases hc : c = '<'
      swap
      · exact next [c] s cur tmp rfl (by simp) (raw_char f k hc (hO.infix ⟨[], s, rfl⟩) _ co cur tmp)
      subst hc
      cases s with
      | nil =>
        exact next ['<'] [] cur tmp rfl (by simp) ((raw_lt f k _ co cur tmp).trans
          (raw_back f k (by decide) (fun _ => by decide) _ co cur tmp))
      | cons e s =>
        by_cases he : e = '/'
        · subst he
          have hsplit : s.takeWhile isAlpha ++ s.dropWhile isAlpha = s := List.takeWhile_append_dropWhile
          generalize hw : s.takeWhile isAlpha = w at hsplit
          generalize hv : s.dropWhile isAlpha = v at hsplit
          have hwa : ∀ c ∈ w, isAlpha c = true := by
            have h1 : (s.takeWhile isAlpha).all isAlpha = true := List.all_takeWhile
            rw [hw, List.all_eq_true] at h1
            exact h1
          have hva : ∀ d v', v = d :: v' → isAlpha d = false := by
            intro d v' h
            have h1 := List.head?_dropWhile_not isAlpha s
            rw [hv, h] at h1
            simpa using h1
          obtain ⟨d, t, hd, hda, hdv⟩ : ∃ d t, v ++ '<' :: '/' :: r = d :: t ∧ isAlpha d = false ∧ (d = '<' ∨ ∃ v', v = d :: v') := by
            cases v with
            | nil => exact ⟨'<', _, rfl, by decide, .inl rfl⟩
            | cons d v => exact ⟨d, _, rfl, hva d v rfl, .inr ⟨v, rfl⟩⟩
          by_cases hw0 : w = []
          · subst hw0
            simp only [List.nil_append] at hsplit
            subst hsplit
            refine next ['<', '/'] v cur [] rfl (by simp) ?_
            refine ((raw_lt f k _ co cur tmp).trans (raw_slash f k _ co cur tmp)).trans ?_
            have := raw_open_back (env := env) (n := n) f k hda t co cur []
            rw [← hd] at this
            exact this
          · refine next ('<' :: '/' :: w) v (some (.endTag (w.map toLower))) [] (by simp [hsplit]) (by simp) ?_
            have h1 := raw_end (env := env) (n := n) f k hw0 hwa (v ++ '<' :: '/' :: r) co cur tmp
            rw [← List.append_assoc, hsplit] at h1
            refine TGo.trans h1 ?_
            have hnn : noNul ('<' :: '/' :: w) = '<' :: '/' :: w := by
              refine noNul_id ?_
              simp only [List.mem_cons, not_or]
              exact ⟨by decide, by decide, fun h => (alpha_not_ws' (hwa _ h)).2.2.2 rfl⟩
            rw [hnn]
            have h2 := raw_name_back (env := env) (n := n) f k hda (m := w.map toLower) ?_ t co w
            · rw [← hd] at h2
              simpa using h2
            · intro hnm
              rcases hdv with rfl | ⟨v', rfl⟩
              · decide
              · have hlow : w.map toLower = w.map Standard.lowercase := List.map_congr_left fun c _ => toLower_eq c
                have h3 := hE [] w d v' (by rw [← hsplit]; simp) (by rw [← hlow, hnm])
                refine ⟨?_, h3.2.1, h3.2.2⟩
                have := h3.1
                simp only [Standard.whitespace, List.mem_cons, List.not_mem_nil, or_false, not_or] at this
                simp [isWs, this]
        · by_cases hb : k = .script ∧ e = '!'
          · obtain ⟨rfl, rfl⟩ := hb
            have g1 : TGo env f (At RawKind.script.base ('<' :: '!' :: (s ++ '<' :: '/' :: r)) co cur tmp n)
                (At .scriptDataEscapeStart (s ++ '<' :: '/' :: r) (co ++ ['<', '!']) cur tmp n) :=
              (raw_lt f .script _ co cur tmp).trans (TGo.one rfl (by simp [RawKind.lt, step, Tok.consume, Tok.adv]))
            by_cases hs : ∃ s', s = '-' :: s'
            · obtain ⟨s', rfl⟩ := hs
              refine next ['<', '!', '-'] s' cur tmp rfl (by simp) ?_
              refine g1.trans ?_
              have hn : noNul ['<', '!', '-'] = ['<', '!', '-'] := by decide
              rw [hn]
              refine TGo.head (t' := At .scriptDataEscapeStartDash (s' ++ '<' :: '/' :: r) (co ++ ['<', '!', '-']) cur tmp n) rfl
                (by simp [step, Tok.consume, Tok.adv]) (TGo.one rfl ?_)
              cases s' with
              | nil => simp [step, Tok.goto, RawKind.base]
              | cons x s' =>
                have hx : x ≠ '-' := by rintro rfl; exact hO ⟨[], s', rfl⟩
                simp [step, Tok.goto, RawKind.base, hx]
            · refine next ['<', '!'] s cur tmp rfl (by simp) ?_
              refine g1.trans ?_
              have hn : noNul ['<', '!'] = ['<', '!'] := by decide
              rw [hn]
              refine TGo.one rfl ?_
              cases s with
              | nil => simp [step, Tok.goto, RawKind.base]
              | cons x s' =>
                have hx : x ≠ '-' := by rintro rfl; exact hs ⟨s', rfl⟩
                simp [step, Tok.goto, RawKind.base, hx]
          · refine next ['<'] (e :: s) cur tmp rfl (by simp) ((raw_lt f k _ co cur tmp).trans
              (raw_back f k he (fun h => ?_) _ co cur tmp))
            rintro rfl
            exact hb ⟨by cases k <;> simp_all [RawKind.base], rfl⟩

/-- the end tag itself -/
theorem raw_finish (p : Parser) {got : List Token} (hg : .eof ∉ got) (h0 : n ≠ []) (hn : ∀ c ∈ n, 'a' ≤ c ∧ c ≤ 'z') (co : Str)
    (cur : Option Token) (tmp : Str) :
    ∃ r', Goes env p ⟨At k.base ('<' :: '/' :: (n ++ ['>'])) co cur tmp n, got⟩ r' ∧
      r'.got = got ++ flush co ++ [.endTag n] ++ [.eof] := by
  have ha : ∀ c ∈ n, isAlpha c = true := fun c hc => lower_alpha (hn c hc)
  have hl : n.map toLower = n := by
    conv_rhs => rw [← List.map_id n]
    refine List.map_congr_left fun c hc => ?_
    have hu : isUpper c = false := by
      have := (hn c hc).1
      rw [Char.le_def, UInt32.le_iff_toNat_le] at this
      have h97 : 97 ≤ c.toNat := this
      simp [isUpper]
      omega
    simp [toLower, hu]
  have h1 := raw_end (env := env) (n := n) (p.foreign got) k h0 ha ['>'] co cur tmp
  rw [hl] at h1
  have h2 : step env (p.foreign got) (At k.en ['>'] co (some (.endTag n)) n n) =
      ⟨[], .data, [], [], [], [], none, n, flush co ++ [.endTag n], []⟩ := by
    by_cases hco : co = [] <;> cases k <;>
      simp [RawKind.en, step, Tok.endTagNameIn, isWs, Tok.appropriate, Tok.endName, Tok.adv, Tok.emitCur, Tok.emit, flush, hco]
  have h3 := emit_run hg h1 rfl h2
  have hg' : .eof ∉ got ++ flush co ++ [.endTag n] := by
    by_cases hco : co = [] <;> simp [flush, hco, hg]
  obtain ⟨r', h4, h5⟩ := ready_eof (env := env) p hg' (co := []) ⟨_, _, _, rfl⟩
  exact ⟨r', h3.trans h4, by simpa [flush] using h5⟩

end

/-- `NoEndTag`, to be checked at each place -/
theorem noEndTag_of {n s : Str} (h : ∀ i < s.length, (((s.drop i).drop (2 + n.length)).head?.any fun d =>
    d ∈ Standard.whitespace || d = '/' || d = '>') = true →
    ¬ ((s.drop i).take 2 = ['<', '/'] ∧ (((s.drop i).drop 2).take n.length).map Standard.lowercase = n)) : NoEndTag n s := by
  rintro a w d b rfl hw
  have hl : w.length = n.length := by rw [← hw, List.length_map]
  have h1 := h a.length (by simp)
  have e : (a ++ ['<', '/'] ++ w ++ d :: b).drop a.length = '<' :: '/' :: (w ++ d :: b) := by simp
  rw [e, ← hl] at h1
  have e2 : ('<' :: '/' :: (w ++ d :: b)).drop (2 + w.length) = d :: b := by
    rw [Nat.add_comm]; simp
  rw [e2] at h1
  by_contra hc
  refine h1 ?_ ⟨rfl, by simpa using hw⟩
  simp only [not_and_or, Decidable.not_not, ne_eq] at hc
  simp only [List.head?_cons, Option.any_some, Bool.or_eq_true, decide_eq_true_eq]
  tauto

/-- **C93**: inside an element whose text the parser has the tokenizer read as raw text (`style`, `script`, `title`, …), nothing
but its own end tag counts as markup. -/
theorem C93_raw_text (env : Env) (hE : env.names = CharRef.tokenNamedChars) (p : Parser) (n : Str) (h0 : n ≠ [])
    (hn : ∀ c ∈ n, 'a' ≤ c ∧ c ≤ 'z') (sc : Bool) (as : List (Str × Str)) (ha : Printable (.startTag n sc as)) (s : Str)
    (hs : NoEndTag n s) (c : Content) (hc : p.switch [.startTag n sc as] = some c)
    (hk : c = .rawtext ∨ (c = .rcdata ∧ '&' ∉ s) ∨ (c = .script ∧ ¬ "<!--".toList <:+: s)) :
    Yields env p (print (.startTag n sc as) ++ s ++ print (.endTag n)) .data
      ([.startTag n sc as] ++ (if s = [] then [] else [.text (noNul s)]) ++ [.endTag n, .eof]) := by
  obtain ⟨k, rfl, hO⟩ : ∃ k : RawKind, c = k.content ∧ k.Ok s := by
    rcases hk with rfl | ⟨rfl, h⟩ | ⟨rfl, h⟩
    · exact ⟨.rawtext, rfl, trivial⟩
    · exact ⟨.rcdata, rfl, h⟩
    · exact ⟨.script, rfl, h⟩
  obtain ⟨tmp, g1⟩ := start_run hE p (got := []) (by simp) ha.1 ha.2.1 ha.2.2 (sc := sc) (co := [])
    (rest := s ++ print (.endTag n)) (r := .start (print (.startTag n sc as) ++ s ++ print (.endTag n)) .data)
    ⟨none, [], [], by rw [List.append_assoc]; rfl⟩
  have e0 : flush ([] : Str) = [] := rfl
  have e1 : k.content.state = k.base := by cases k <;> rfl
  simp only [e0, List.nil_append, List.append_nil, afterToken, hc, Option.elim_some, e1] at g1
  have e2 : print (.endTag n) = '<' :: '/' :: (n ++ ['>']) := by simp [print_end]
  obtain ⟨cur', tmp', g2⟩ := raw_text (env := env) (p.foreign [.startTag n sc as]) k (n := n) (n ++ ['>']) s.length s [] none tmp
    (Nat.le_refl _) hs hO
  obtain ⟨r', g3, h3⟩ := raw_finish (env := env) k p (got := [.startTag n sc as]) (by simp) h0 hn (noNul s) cur' tmp'
  rw [e2] at g1
  obtain ⟨N, hN⟩ := (g1.trans (g2.goes (by simp))).trans g3
  rw [e2]
  refine ⟨N, ?_, ?_⟩
  · rw [hN, h3]
    by_cases hs0 : s = [] <;> simp [flush, hs0, noNul]
  · have e3 : ∀ l : List Token, (l ++ [Token.endTag n, Token.eof]).getLast? = some Token.eof := by intro l; simp
    exact e3 _

/-- a script with a comparison, a string holding a tag and the end tag of another element, an end tag cut short, `<!-` and a NUL -/
example : Yields demoEnv demo "<script a=\"b\">if (a<b) \"</p><!- </scrip </scriptx\x00\"</script>".toList .data
    [.startTag "script".toList false [(['a'], ['b'])], .text ("if (a<b) \"</p><!- </scrip </scriptx".toList ++ [Char.ofNat 0xFFFD, '"']),
     .endTag "script".toList, .eof] := by
  have hN : NoEndTag "script".toList "if (a<b) \"</p><!- </scrip </scriptx\x00\"".toList := noEndTag_of (by decide +kernel)
  exact C93_raw_text demoEnv rfl demo "script".toList (by decide) (by decide) false [(['a'], ['b'])]
    ⟨⟨⟨'s', rfl, by decide, by decide⟩, by unfold NameChar; decide +kernel⟩, ⟨by decide, by unfold NameChar; decide +kernel⟩, by decide⟩
    _ hN .script rfl (.inr (.inr ⟨rfl, by decide +kernel⟩))

/-- escaped text in the RCDATA state -/
theorem go_rcdata {env : Env} (hE : env.names = CharRef.tokenNamedChars) (f : Bool) (s : Str) : ∀ (r co : Str) (cur : Option Token)
    (tmp ls : Str), ∃ tmp', TGo env f (At .rcdata (escape false s ++ r) co cur tmp ls) (At .rcdata r (co ++ noNul s) cur tmp' ls) := by
  induction s with
  | nil => intro r co cur tmp ls; exact ⟨tmp, by simpa [escape, noNul] using TGo.rfl' _⟩
  | cons c s ih =>
    intro r co cur tmp ls
    have e : escape false (c :: s) ++ r = escapeChar false c ++ (escape false s ++ r) := by simp [escape]
    rw [e]
    have e2 : co ++ noNul (c :: s) = co ++ noNul [c] ++ noNul s := by simp [noNul]
    rw [e2]
    rcases escapeChar_cases false c with ⟨h, h1, h2, h3, _⟩ | ⟨run, h, hl⟩
    · obtain ⟨tmp', h'⟩ := ih r (co ++ noNul [c]) cur tmp ls
      refine ⟨tmp', TGo.trans ?_ h'⟩
      rw [h]
      exact raw_char f .rcdata h2 (fun hm => h1 (by simpa using Eq.symm (List.mem_singleton.1 hm))) _ co cur tmp
    · have hc : noNul [c] = [c] := noNul_id (by
        rw [List.mem_singleton]; rintro rfl
        have h4 : escapeChar false (Char.ofNat 0) = [Char.ofNat 0] := by decide
        rw [h4] at h
        simp at h)
      obtain ⟨tmp', h'⟩ := ih r (co ++ noNul [c]) cur [] ls
      refine ⟨tmp', TGo.head (t' := At .characterReferenceInRcData (run ++ [';'] ++ (escape false s ++ r)) co cur tmp ls)
        rfl ?_ (TGo.head rfl ?_ h')⟩
      · rw [h]; simp [step, Tok.adv]
      · rw [← hE] at hl
        rw [hc]
        simp only [step]
        rw [charRef_named (tableOk hE) hl]
        rfl

/-- **C93**: the text of an element such as `title` or `textarea`, written out with `&`, `<`, `>` and no-break spaces escaped, is
read back whatever it is (but for NULs, which become U+FFFD). -/
theorem C93_escaped_text (env : Env) (hE : env.names = CharRef.tokenNamedChars) (p : Parser) (n : Str) (h0 : n ≠ [])
    (hn : ∀ c ∈ n, 'a' ≤ c ∧ c ≤ 'z') (sc : Bool) (as : List (Str × Str)) (ha : Printable (.startTag n sc as)) (s : Str)
    (hc : p.switch [.startTag n sc as] = some .rcdata) :
    Yields env p (print (.startTag n sc as) ++ print (.text s) ++ print (.endTag n)) .data
      ([.startTag n sc as] ++ (if s = [] then [] else [.text (noNul s)]) ++ [.endTag n, .eof]) := by
  have ep : print (.text s) = escape false s := rfl
  rw [ep]
  obtain ⟨tmp, g1⟩ := start_run hE p (got := []) (by simp) ha.1 ha.2.1 ha.2.2 (sc := sc) (co := [])
    (rest := escape false s ++ print (.endTag n))
    (r := .start (print (.startTag n sc as) ++ escape false s ++ print (.endTag n)) .data)
    ⟨none, [], [], by rw [List.append_assoc]; rfl⟩
  have e0 : flush ([] : Str) = [] := rfl
  have e1 : Content.rcdata.state = .rcdata := rfl
  simp only [e0, List.nil_append, List.append_nil, afterToken, hc, Option.elim_some, e1] at g1
  have e2 : print (.endTag n) = '<' :: '/' :: (n ++ ['>']) := by simp [print_end]
  obtain ⟨tmp', g2⟩ := go_rcdata hE (p.foreign [.startTag n sc as]) s ('<' :: '/' :: (n ++ ['>'])) [] none tmp n
  obtain ⟨r', g3, h3⟩ := raw_finish (env := env) .rcdata p (got := [.startTag n sc as]) (by simp) h0 hn (noNul s) none tmp'
  rw [e2] at g1
  obtain ⟨N, hN⟩ := (g1.trans (g2.goes (by simp))).trans g3
  rw [e2]
  refine ⟨N, ?_, ?_⟩
  · rw [hN, h3]
    by_cases hs0 : s = [] <;> simp [flush, hs0, noNul]
  · have e3 : ∀ l : List Token, (l ++ [Token.endTag n, Token.eof]).getLast? = some Token.eof := by intro l; simp
    exact e3 _

example : Yields demoEnv demo "<title>a &amp;amp; b &lt;/title&gt;</title>".toList .data
    [.startTag "title".toList false [], .text "a &amp; b </title>".toList, .endTag "title".toList, .eof] :=
  C93_escaped_text demoEnv rfl demo "title".toList (by decide) (by decide) false []
    ⟨⟨⟨'t', rfl, by decide, by decide⟩, by unfold NameChar; decide +kernel⟩, ⟨by decide, by simp⟩, by simp⟩
    "a &amp; b </title>".toList rfl

end Verif.HtmlTok
