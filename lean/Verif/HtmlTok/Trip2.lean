import Verif.HtmlTok.Trip

/-!
# Whole tokens, written out and read
-/

namespace Verif.HtmlTok

open Relation (ReflTransGen)

/-- the text token put before another one -/
abbrev flush (s : Str) : List Token := if s = [] then [] else [.text s]

theorem emit_run {env : Env} {p : Parser} {got : List Token} {t0 t1 : Tok} {rest co : Str} {k : Token} {cur : Option Token}
    {tmp ls : Str} (hg : .eof ∉ got) (hgo : TGo env (p.foreign got) t0 t1) (hq : t1.queue = [])
    (hs : step env (p.foreign got) t1 = ⟨rest, .data, [], [], [], [], cur, tmp, flush co ++ [k], ls⟩) :
    Goes env p ⟨t0, got⟩
      ⟨⟨rest, afterToken p (got ++ flush co ++ [k]) .data k, [], [], [], [], cur, tmp, [], ls⟩, got ++ flush co ++ [k]⟩ :=
  ((hgo.trans (TGo.one hq hs)).goes hg).trans (goes_queue (env := env) (p := p) (s := co) (k := k) (got := got)
    (t := ⟨rest, .data, [], [], [], [], cur, tmp, flush co ++ [k], ls⟩) hg rfl)

theorem ready_emit {env : Env} {p : Parser} {got : List Token} {t0 t1 : Tok} {rest co : Str} {k : Token} {cur : Option Token}
    {tmp ls : Str} (hg : .eof ∉ got) (hgo : TGo env (p.foreign got) t0 t1) (hq : t1.queue = [])
    (hs : step env (p.foreign got) t1 = ⟨rest, .data, [], [], [], [], cur, tmp, flush co ++ [k], ls⟩)
    (hk : p.switch (got ++ flush co ++ [k]) = none) :
    ∃ r', Goes env p ⟨t0, got⟩ r' ∧ Ready [] rest (got ++ flush co ++ [k]) r' := by
  refine ⟨_, emit_run hg hgo hq hs, cur, tmp, ls, ?_⟩
  have : afterToken p (got ++ flush co ++ [k]) .data k = .data := by
    unfold afterToken
    split
    · rw [hk]; rfl
    · rfl
  simp only [this]

theorem print_end (n : Str) : print (.endTag n) = ['<', '/'] ++ n ++ ['>'] := rfl

theorem print_start (n : Str) (sc : Bool) (as : List (Str × Str)) :
    print (.startTag n sc as) = ['<'] ++ n ++ as.flatMap printAttr ++ (if sc then ['/', '>'] else ['>']) := rfl

theorem print_doctype (n : Str) : print (.doctype (some n) false none none) = "<!DOCTYPE ".toList ++ n ++ ['>'] := rfl

theorem print_comment (s : Str) : print (.comment s) = "<!--".toList ++ s ++ "-->".toList := rfl

theorem lower_alpha {c : Char} (h : 'a' ≤ c ∧ c ≤ 'z') : isAlpha c = true := by
  obtain ⟨h1, h2⟩ := h
  rw [Char.le_def, UInt32.le_iff_toNat_le] at h1 h2
  simp only [isAlpha, Bool.or_eq_true, Bool.and_eq_true, decide_eq_true_eq]
  exact .inr ⟨h1, h2⟩

theorem lower_ne {c : Char} (h : 'a' ≤ c ∧ c ≤ 'z') : c ≠ '!' ∧ c ≠ '/' := by
  constructor <;> rintro rfl <;> revert h <;> decide

section
variable {env : Env} (hE : env.names = CharRef.tokenNamedChars) (p : Parser)

/-- `<name` -/
theorem go_open (f : Bool) (n : Str) (hn : TagName n) (r co an av : Str) (as : List (Str × Str)) (cur : Option Token) (tmp ls : Str) :
    TGo env f ⟨'<' :: (n ++ r), .data, co, an, av, as, cur, tmp, [], ls⟩
      ⟨r, .tagName, co, an, av, as, some (.startTag n false []), tmp, [], ls⟩ := by
  obtain ⟨⟨c, hc, hl⟩, hall⟩ := hn
  have key := go_tagName (env := env) f n [] r co an av as false tmp ls hall
  cases n with
  | nil => simp at hc
  | cons d n =>
    simp only [List.head?_cons, Option.some.injEq] at hc
    subst hc
    refine TGo.head (t' := ⟨d :: n ++ r, .tagOpen, co, an, av, as, cur, tmp, [], ls⟩) rfl (by simp [step, Tok.adv]) ?_
    refine TGo.head (t' := ⟨d :: n ++ r, .tagName, co, an, av, as, some (.startTag [] false []), tmp, [], ls⟩) rfl ?_ key
    simp [step, lower_ne hl, lower_alpha hl]

/-- `</name` -/
theorem go_close (f : Bool) (n : Str) (hn : TagName n) (r co an av : Str) (as : List (Str × Str)) (cur : Option Token) (tmp ls : Str) :
    TGo env f ⟨'<' :: '/' :: (n ++ r), .data, co, an, av, as, cur, tmp, [], ls⟩
      ⟨r, .tagName, co, an, av, as, some (.endTag n), tmp, [], ls⟩ := by
  obtain ⟨⟨c, hc, hl⟩, hall⟩ := hn
  have key := go_tagName (env := env) f n [] r co an av as true tmp ls hall
  cases n with
  | nil => simp at hc
  | cons d n =>
    simp only [List.head?_cons, Option.some.injEq] at hc
    subst hc
    refine TGo.head (t' := ⟨'/' :: (d :: n ++ r), .tagOpen, co, an, av, as, cur, tmp, [], ls⟩) rfl (by simp [step, Tok.adv]) ?_
    refine TGo.head (t' := ⟨d :: n ++ r, .endTagOpen, co, an, av, as, cur, tmp, [], ls⟩) rfl (by simp [step, Tok.adv]) ?_
    refine TGo.head (t' := ⟨d :: n ++ r, .tagName, co, an, av, as, some (.endTag []), tmp, [], ls⟩) rfl ?_ key
    simp [step, lower_alpha hl]

theorem ready_end {got : List Token} (hg : .eof ∉ got) {n : Str} (hn : TagName n) {co rest : Str} {r : Run}
    (hr : Ready co (print (.endTag n) ++ rest) got r) (hk : p.switch (got ++ flush co ++ [.endTag n]) = none) :
    ∃ r', Goes env p r r' ∧ Ready [] rest (got ++ flush co ++ [.endTag n]) r' := by
  obtain ⟨cur, tmp, ls, rfl⟩ := hr
  have g := go_close (env := env) (p.foreign got) n hn ('>' :: rest) co [] [] [] cur tmp ls
  have e : print (.endTag n) ++ rest = '<' :: '/' :: (n ++ '>' :: rest) := by simp only [print_end, List.append_assoc, List.cons_append, List.nil_append]
  rw [e]
  refine ready_emit (ls := ls) (tmp := tmp) (cur := none) hg g rfl ?_ hk
  by_cases hco : co = [] <;> simp [step, isWs, Tok.adv, Tok.emitCur, Tok.emit, Tok.noteStart, flush, hco]

include hE in
theorem start_run {got : List Token} (hg : .eof ∉ got) {n : Str} (hn : TagName n) {sc : Bool} {as : List (Str × Str)}
    (ha : AttrsOk as) (ha' : ∀ a ∈ as, '=' ∉ a.1 ∧ Char.ofNat 0 ∉ a.2) {co rest : Str} {r : Run}
    (hr : Ready co (print (.startTag n sc as) ++ rest) got r) :
    ∃ tmp, Goes env p r ⟨⟨rest, afterToken p (got ++ flush co ++ [.startTag n sc as]) .data (.startTag n sc as), [], [], [], [], none,
      tmp, [], n⟩, got ++ flush co ++ [.startTag n sc as]⟩ := by
  obtain ⟨cur, tmp, ls, rfl⟩ := hr
  have g := go_open (env := env) (p.foreign got) n hn (as.flatMap printAttr ++ ((if sc then ['/', '>'] else ['>']) ++ rest)) co [] [] []
    cur tmp ls
  have e : print (.startTag n sc as) ++ rest =
      '<' :: (n ++ (as.flatMap printAttr ++ ((if sc then ['/', '>'] else ['>']) ++ rest))) := by simp only [print_start, List.append_assoc, List.cons_append, List.nil_append]
  rw [e]
  cases as with
  | nil =>
    cases sc with
    | false =>
      refine ⟨tmp, emit_run (ls := n) (tmp := tmp) (cur := none) hg g rfl ?_⟩
      by_cases hco : co = [] <;> simp [step, isWs, Tok.adv, Tok.emitCur, Tok.emit, Tok.noteStart, flush, hco]
    | true =>
      refine ⟨tmp, emit_run (ls := n) (tmp := tmp) (cur := none) (t1 := ⟨'>' :: rest, .selfClosingStart, co, [], [], [],
        some (.startTag n false []), tmp, [], ls⟩) hg (g.trans (TGo.one rfl ?_)) rfl ?_⟩
      · simp [step, isWs, Tok.adv]
      · by_cases hco : co = [] <;> simp [step, Tok.adv, Tok.finishTag, Tok.storeAttr, Tok.addStored, Tok.setSelfClosing, Tok.emitCur, Tok.emit, Tok.noteStart, flush, hco]
  | cons a l =>
    have h1 := ha.2
    obtain ⟨tmp1, g1⟩ := go_attr (p.foreign got) hE a.1 a.2 (h1 a (by simp)).1 (h1 a (by simp)).2 (ha' a (by simp)).1
      (ha' a (by simp)).2 (l.flatMap printAttr ++ ((if sc then ['/', '>'] else ['>']) ++ rest)) co [] [] []
      (some (.startTag n false [])) tmp ls
    have e0 : stored [] [] [] = [] := rfl
    have e1 : stored [] a.1 a.2 = [a] := by simp [stored, (h1 a (by simp)).1]
    rw [e0] at g1
    obtain ⟨an', av', as', tmp', g2, hs⟩ := go_attrs (p.foreign got) hE l ((if sc then ['/', '>'] else ['>']) ++ rest) co a.1 a.2 []
      (some (.startTag n false [])) tmp1 ls (by rw [e1]; exact ha.1) (fun x hx => h1 x (by simp [hx])) (fun x hx => ha' x (by simp [hx]))
    rw [e1] at hs
    have hsp : step env (p.foreign got) ⟨List.flatMap printAttr (a :: l) ++ ((if sc then ['/', '>'] else ['>']) ++ rest), .tagName, co,
        [], [], [], some (.startTag n false []), tmp, [], ls⟩ =
        ⟨a.1 ++ ['=', '"'] ++ escape true a.2 ++ ['"'] ++ (l.flatMap printAttr ++ ((if sc then ['/', '>'] else ['>']) ++ rest)),
          .beforeAttributeName, co, [], [], [], some (.startTag n false []), tmp, [], ls⟩ := by
      simp [step, printAttr, isWs, Tok.adv]
    have g3 := ((g.trans (TGo.one rfl hsp)).trans g1).trans g2
    have hne : ¬ stored as' an' av' = [] := by rw [hs]; simp
    cases sc with
    | false =>
      refine ⟨tmp', emit_run (ls := n) (tmp := tmp') (cur := none) hg g3 rfl ?_⟩
      by_cases hco : co = [] <;> simp [step, isWs, Tok.adv, Tok.finishTag, storeAttr_eq, Tok.addStored, hs, Tok.emitCur, Tok.emit, Tok.noteStart, flush, hco]
    | true =>
      refine ⟨tmp', emit_run (ls := n) (tmp := tmp') (cur := none) (t1 := ⟨'>' :: rest, .selfClosingStart, co, an', av', as',
        some (.startTag n false []), tmp', [], ls⟩) hg (g3.trans (TGo.one rfl ?_)) rfl ?_⟩
      · simp [step, isWs, Tok.adv]
      · by_cases hco : co = [] <;> simp [step, Tok.adv, Tok.finishTag, storeAttr_eq, Tok.addStored, Tok.setSelfClosing, hs, Tok.emitCur, Tok.emit, Tok.noteStart, flush, hco]

include hE in
theorem ready_start {got : List Token} (hg : .eof ∉ got) {n : Str} (hn : TagName n) {sc : Bool} {as : List (Str × Str)}
    (ha : AttrsOk as) (ha' : ∀ a ∈ as, '=' ∉ a.1 ∧ Char.ofNat 0 ∉ a.2) {co rest : Str} {r : Run}
    (hr : Ready co (print (.startTag n sc as) ++ rest) got r) (hk : p.switch (got ++ flush co ++ [.startTag n sc as]) = none) :
    ∃ r', Goes env p r r' ∧ Ready [] rest (got ++ flush co ++ [.startTag n sc as]) r' := by
  obtain ⟨tmp, h⟩ := start_run hE p hg hn ha ha' hr
  simp only [afterToken, hk, Option.elim_none] at h
  exact ⟨_, h, _, _, _, rfl⟩

include hE in
theorem ready_text {got : List Token} (hg : .eof ∉ got) {s co rest : Str} {r : Run}
    (hr : Ready co (escape false s ++ rest) got r) : ∃ r', Goes env p r r' ∧ Ready (co ++ s) rest got r' := by
  obtain ⟨cur, tmp, ls, rfl⟩ := hr
  obtain ⟨tmp', h⟩ := go_text hE (p.foreign got) s rest co [] [] [] cur tmp ls
  exact ⟨_, h.goes hg, cur, tmp', ls, rfl⟩

/-! ## DOCTYPE -/

theorem go_docName (f : Bool) (n : Str) : ∀ (m r co an av : Str) (as : List (Str × Str)) (tmp ls : Str), (∀ c ∈ n, NameChar c) →
    TGo env f ⟨n ++ r, .doctypeName, co, an, av, as, some (.doctype (some m) false none none), tmp, [], ls⟩
      ⟨r, .doctypeName, co, an, av, as, some (.doctype (some (m ++ n)) false none none), tmp, [], ls⟩ := by
  induction n with
  | nil => intro m r co an av as tmp ls _; simpa using TGo.rfl' _
  | cons c n ih =>
    intro m r co an av as tmp ls h
    have hc := h c (by simp)
    have e2 : m ++ c :: n = m ++ [c] ++ n := by simp
    rw [e2]
    refine TGo.head rfl ?_ (ih (m ++ [c]) r co an av as tmp ls (fun d hd => h d (by simp [hd])))
    simp [step, Tok.addName, nameChar_isWs hc, nameChar_isUpper hc, hc.2.2.1, hc.2.2.2.1]

theorem ahead_doctype (r : Str) : env.ahead "DOCTYPE".toList ("DOCTYPE".toList ++ r) = true := by
  have hs : slice "DOCTYPE".toList.length ("DOCTYPE".toList ++ r) = "DOCTYPE".toList := by
    rw [slice_eq_take (by decide)]; simp
  rw [Env.ahead, hs]
  simp [Env.up]

theorem ready_doctype {got : List Token} (hg : .eof ∉ got) {n : Str} (hn : TagName n) {co rest : Str} {r : Run}
    (hr : Ready co (print (.doctype (some n) false none none) ++ rest) got r)
    (hk : p.switch (got ++ flush co ++ [.doctype (some n) false none none]) = none) :
    ∃ r', Goes env p r r' ∧ Ready [] rest (got ++ flush co ++ [.doctype (some n) false none none]) r' := by
  obtain ⟨cur, tmp, ls, rfl⟩ := hr
  obtain ⟨⟨c, hc, hl⟩, hall⟩ := hn
  cases n with
  | nil => simp at hc
  | cons d n =>
    simp only [List.head?_cons, Option.some.injEq] at hc
    subst hc
    have hd := hall d (by simp)
    have g := go_docName (env := env) (p.foreign got) n [d] ('>' :: rest) co [] [] [] tmp ls (fun x hx => hall x (by simp [hx]))
    have e : print (.doctype (some (d :: n)) false none none) ++ rest =
        '<' :: '!' :: ("DOCTYPE".toList ++ (' ' :: (d :: n ++ '>' :: rest))) := by
      simp only [print_doctype, List.append_assoc, List.cons_append, List.nil_append]; rfl
    rw [e]
    have h1 : TGo env (p.foreign got)
        ⟨'<' :: '!' :: ("DOCTYPE".toList ++ (' ' :: (d :: n ++ '>' :: rest))), .data, co, [], [], [], cur, tmp, [], ls⟩
        ⟨"DOCTYPE".toList ++ (' ' :: (d :: n ++ '>' :: rest)), .markupDeclarationOpen, co, [], [], [], cur, tmp, [], ls⟩ :=
      TGo.head (t' := ⟨'!' :: ("DOCTYPE".toList ++ (' ' :: (d :: n ++ '>' :: rest))), .tagOpen, co, [], [], [], cur, tmp, [], ls⟩)
        rfl (by simp [step, Tok.adv]) (TGo.one rfl (by simp [step, Tok.adv]))
    have h2 : step env (p.foreign got)
        ⟨"DOCTYPE".toList ++ (' ' :: (d :: n ++ '>' :: rest)), .markupDeclarationOpen, co, [], [], [], cur, tmp, [], ls⟩ =
        ⟨' ' :: (d :: n ++ '>' :: rest), .doctype, co, [], [], [], cur, tmp, [], ls⟩ := by
      simp only [step, Tok.markupDeclaration]
      rw [if_neg, if_pos (ahead_doctype _)]
      · simp [Tok.adv]
      · simp [slice]
    have h3 : step env (p.foreign got) ⟨' ' :: (d :: n ++ '>' :: rest), .doctype, co, [], [], [], cur, tmp, [], ls⟩ =
        ⟨d :: n ++ '>' :: rest, .beforeDoctypeName, co, [], [], [], cur, tmp, [], ls⟩ := by
      simp [step, Tok.adv, isWs]
    have h4 : step env (p.foreign got) ⟨d :: n ++ '>' :: rest, .beforeDoctypeName, co, [], [], [], cur, tmp, [], ls⟩ =
        ⟨n ++ '>' :: rest, .doctypeName, co, [], [], [], some (.doctype (some [d]) false none none), tmp, [], ls⟩ := by
      simp [step, Tok.startDoctype, Tok.addName, Tok.adv, nameChar_isWs hd, nameChar_isUpper hd, hd.2.2.1, hd.2.2.2.1]
    refine ready_emit (ls := ls) (tmp := tmp) (cur := none) hg
      ((((h1.trans (TGo.one rfl h2)).trans (TGo.one rfl h3)).trans (TGo.one rfl h4)).trans g) rfl ?_ hk
    by_cases hco : co = [] <;> simp [step, isWs, Tok.adv, Tok.emitCur, Tok.emit, Tok.noteStart, flush, hco]

end

end Verif.HtmlTok
