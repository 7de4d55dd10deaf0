import Verif.TreeBuild.Text

/-!
# C107: a page written as text and parsed
-/
namespace Verif.TreeBuild
open Verif
open Verif.HtmlTok (print Printable flush Goes)

/-! ## There is such a parser -/

theorem fetch_input (l : Loop) : (Loop.fetch l).2.input.length ≤ l.input.length := by
  unfold Loop.fetch
  cases l.st.queue with
  | cons t q => exact Nat.le_refl _
  | nil =>
    cases h : l.input with
    | nil => simp [h]
    | cons t r => simp

theorem next_input (l : Loop) : (Loop.next l).2.input.length ≤ l.input.length := by
  unfold Loop.next
  cases l.again with
  | some x => exact Nat.le_refl _
  | none => exact fetch_input l

theorem step_input {env : Env} {l l' : Loop} (h : Loop.step env l = some l') : l'.input.length ≤ l.input.length := by
  unfold Loop.step at h
  cases hf : l.st.finished with
  | true => rw [hf, if_pos rfl] at h; cases h; exact Nat.le_refl _
  | false =>
    rw [hf, if_neg (by simp)] at h
    obtain ⟨r, _, rfl⟩ := Option.map_eq_some_iff.1 h
    exact next_input l

theorem run_input {env : Env} : ∀ {k : Nat} {l l' : Loop}, Loop.run env l k = some l' → l'.input.length ≤ l.input.length
  | 0, l, l', h => by cases h; exact Nat.le_refl _
  | k + 1, l, l', h => by
    change (Loop.step env l).bind (fun l' => Loop.run env l' k) = some l' at h
    obtain ⟨m, h1, h2⟩ := Option.bind_eq_some_iff.1 h
    exact Nat.le_trans (run_input h2) (step_input h1)

theorem still {env : Env} {s s' : St} (hq : s.queue = []) {x : Token} : ∀ {k : Nat},
    Loop.run env ⟨s, none, [x]⟩ k = some ⟨s', none, [x]⟩ → s = s'
  | 0, h => by cases h; rfl
  | k + 1, h => by
    cases hf : s.finished with
    | true =>
      rw [run_finished env (l := ⟨s, none, [x]⟩) hf] at h
      cases h; rfl
    | false =>
      exfalso
      change (Loop.step env ⟨s, none, [x]⟩).bind (fun l' => Loop.run env l' k) = some _ at h
      obtain ⟨m, h1, h2⟩ := Option.bind_eq_some_iff.1 h
      have h3 := run_input h2
      unfold Loop.step at h1
      rw [if_neg (by simp [hf])] at h1
      obtain ⟨r, _, rfl⟩ := Option.map_eq_some_iff.1 h1
      have : (Loop.next ⟨s, none, [x]⟩).2.input = [] := by
        simp [Loop.next, Loop.fetch, hq]
      simp only [this] at h3
      simp at h3

theorem hasRead_unique {env : Env} {got : List Token} {s s' : St} (h : HasRead env got s) (h' : HasRead env got s')
    (hq : s.queue = []) (hq' : s'.queue = []) : s = s' := by
  obtain ⟨k, e⟩ := h [.eof]
  obtain ⟨k', e'⟩ := h' [.eof]
  rcases Nat.le_total k k' with hk | hk
  · obtain ⟨m, rfl⟩ := Nat.le.dest hk
    rw [run_more env e] at e'
    exact still hq e'
  · obtain ⟨m, rfl⟩ := Nat.le.dest hk
    rw [run_more env e'] at e
    exact (still hq' e).symm

/-- the hypothesis of C107 is met: for every tree builder there is the parser that asks what it asks -/
theorem C107_serves (env : Env) : ∃ p, Serves env p := by
  classical
  refine ⟨⟨fun got => if h : ∃ s, HasRead env got s ∧ s.queue = [] then h.choose.switch else none, fun _ => false⟩, ?_⟩
  intro got s h hq
  have hx : ∃ s, HasRead env got s ∧ s.queue = [] := ⟨s, h, hq⟩
  show (if h : ∃ s, HasRead env got s ∧ s.queue = [] then h.choose.switch else none) = _
  rw [dif_pos hx, hasRead_unique hx.choose_spec.1 h hx.choose_spec.2 hq]

/-! ## The page -/

section
variable {tenv : HtmlTok.Env} (hE : tenv.names = CharRef.tokenNamedChars) (p : HtmlTok.Parser) {all : List Token} (hall : .eof ∉ all)
  (hs : ∀ g t, g ++ [t] <+: all → p.switch (g ++ [t]) = asks t)

/-- two trees that are not text -/
theorem two_print {a b : Tree} (ha : Prints (tenv := tenv) p (all := all) a) (hb : Prints (tenv := tenv) p (all := all) b)
    (ta : a.isText = false) (tb : b.isText = false) : AllPrint (tenv := tenv) p (all := all) [a, b] := by
  intro got co rest r _ hp hr
  simp only [allTokens, writeAll, List.append_nil] at hp hr ⊢
  rw [List.append_assoc] at hr
  obtain ⟨r1, got1, co1, g1, h1, e1, f1⟩ := ha got co _ r (fun h => by rw [ta] at h; cases h)
    (List.IsPrefix.trans ⟨b.tokens, by simp⟩ hp) hr
  obtain ⟨r2, got2, co2, g2, h2, e2, f2⟩ := hb got1 co1 rest r1 (fun h => by rw [tb] at h; cases h)
    (by rw [e1, List.append_assoc]; exact hp) h1
  exact ⟨r2, got2, co2, g1.trans g2, h2, by rw [e2, e1, List.append_assoc]⟩

include hE hall hs in
theorem root_print (P : Page) (hf : P.fits) (hw : P.root.Writable) : Prints (tenv := tenv) p (all := all) P.root := by
  unfold Page.root Tree.Writable AllWritable AllWritable AllWritable at hw
  obtain ⟨hw1, _, hw2, hw3, _⟩ := hw
  unfold Tree.Writable at hw2 hw3
  unfold Page.root
  refine elem_print hE p hall hs (by decide +kernel) (by decide +kernel) hw1 (two_print p ?_ ?_ rfl rfl)
  · exact elem_print hE p hall hs (by decide +kernel) (by decide +kernel) hw2.1 (trees_print hE p hall hs P.head hf.1 hw2.2.2)
  · exact elem_print hE p hall hs (by decide +kernel) (by decide +kernel) hw3.1 (trees_print hE p hall hs P.body hf.2 hw3.2.2)

end

mutual
theorem tokens_eof : ∀ t : Tree, .eof ∉ t.tokens
  | .text v => by simp [Tree.tokens]
  | .comment v => by simp [Tree.tokens]
  | .elem n as kids => by
    have := allTokens_eof kids
    unfold Tree.tokens
    by_cases hv : n ∈ voids
    · rw [if_pos hv]; simp
    · rw [if_neg hv]; simp [this]
theorem allTokens_eof : ∀ ts : List Tree, .eof ∉ allTokens ts
  | [] => by simp [allTokens]
  | t :: r => by
    have := tokens_eof t
    have := allTokens_eof r
    unfold allTokens
    simp [*]
end

theorem page_eof (P : Page) : .eof ∉ P.tokens := by
  unfold Page.tokens
  cases P.doctype <;> simp [tokens_eof]

theorem page_print {tenv : HtmlTok.Env} (hE : tenv.names = CharRef.tokenNamedChars) (p : HtmlTok.Parser) (P : Page) (hf : P.fits)
    (hw : P.Writable) (hs : ∀ g t, g ++ [t] <+: P.tokens → p.switch (g ++ [t]) = asks t) :
    HtmlTok.Yields tenv p P.write .data (P.tokens ++ [.eof]) := by
  have hall := page_eof P
  have go : ∀ (got : List Token) (r : HtmlTok.Run), got ++ P.root.tokens = P.tokens → HtmlTok.Ready [] P.root.write got r →
      ∃ r', Goes tenv p r r' ∧ r'.got = P.tokens ++ [.eof] := by
    intro got r hg hr
    obtain ⟨r1, got1, co1, g1, h1, e1, _⟩ := root_print hE p hall hs P hf hw.2 got [] [] r (fun _ => rfl)
      (by rw [show got ++ flush [] = got by simp [flush], hg]; exact List.prefix_refl _) (by rw [List.append_nil]; exact hr)
    have he : .eof ∉ got1 := fun h => hall (by
      rw [← hg, show got = got ++ flush [] by simp [flush], ← e1]; simp [h])
    obtain ⟨r2, g2, h2⟩ := HtmlTok.ready_eof (env := tenv) p he h1
    refine ⟨r2, g1.trans g2, ?_⟩
    rw [h2, e1, show got ++ flush [] = got by simp [flush], hg]
  have start : ∃ (got : List Token) (r : HtmlTok.Run), Goes tenv p (.start P.write .data) r ∧ got ++ P.root.tokens = P.tokens ∧
      HtmlTok.Ready [] P.root.write got r := by
    cases hd : P.doctype with
    | none =>
      refine ⟨[], .start P.write .data, ⟨0, rfl⟩, by unfold Page.tokens; rw [hd], none, [], [], ?_⟩
      unfold Page.write; rw [hd]; rfl
    | some x =>
      obtain ⟨n, q, pub, sys⟩ := x
      have hpr := hw.1 n q pub sys hd
      obtain ⟨⟨m, rfl, hm⟩, rfl, rfl, rfl⟩ := hpr
      have ht : P.tokens = [.doctype (some m) false none none] ++ P.root.tokens := by unfold Page.tokens; rw [hd]
      have hwr : P.write = print (.doctype (some m) false none none) ++ P.root.write := by unfold Page.write; rw [hd]
      obtain ⟨r1, g1, h1⟩ := tag_print hE p hall hs (k := .doctype (some m) false none none) (hw.1 _ _ _ _ hd) (by simp) rfl
        (got := []) (co := []) (rest := P.root.write) (r := .start P.write .data)
        (by rw [ht]; exact ⟨P.root.tokens, rfl⟩) ⟨none, [], [], by rw [hwr]; rfl⟩
      exact ⟨_, r1, g1, ht.symm, h1⟩
  obtain ⟨got, r, g1, hg, hr⟩ := start
  obtain ⟨r', g2, h2⟩ := go got r hg hr
  obtain ⟨N, hN⟩ := g1.trans g2
  exact ⟨N, by rw [hN, h2], by simp⟩

/-- **C107**: a page written out as text as the standard says, and parsed, the tokenizer doing what the tree builder asks it, is that
page. -/
theorem C107_text (tenv : HtmlTok.Env) (hE : tenv.names = CharRef.tokenNamedChars) (env : Env) (p : HtmlTok.Parser) (hp : Serves env p)
    (P : Page) (hf : P.fits) (hw : P.Writable) :
    (∃ toks d, HtmlTok.Yields tenv p P.write .data (toks ++ [.eof]) ∧ Ends env (atStart toks) d) ∧
    ∀ toks d, HtmlTok.Yields tenv p P.write .data (toks ++ [.eof]) → Ends env (atStart toks) d → IsPage d P := by
  obtain ⟨s', r, _⟩ := page_read env P hf
  have hs : ∀ g t, g ++ [t] <+: P.tokens → p.switch (g ++ [t]) = asks t := by
    intro g t hg
    obtain ⟨s1, h1, h2, h3⟩ := r.2 g t hg
    rw [hp _ s1 h1 h2, h3]
  have hy := page_print hE p P hf hw hs
  obtain ⟨⟨d, hd⟩, hall⟩ := C106_page env P hf
  refine ⟨⟨_, d, hy, hd⟩, fun toks d' h1 h2 => ?_⟩
  have := HtmlTok.yields_unique h1 hy
  rw [List.append_cancel_right this] at h2
  exact hall d' h2

theorem printable_tag {n : Str} {as : Attrs} (h1 : n.head?.any (fun c => decide ('a' ≤ c ∧ c ≤ 'z')) = true)
    (h2 : ∀ c ∈ n, HtmlTok.NameChar c) (h3 : HtmlTok.AttrsOk as) (h4 : ∀ a ∈ as, '=' ∉ a.1 ∧ Char.ofNat 0 ∉ a.2) :
    Printable (.startTag n false as) := by
  refine ⟨⟨?_, h2⟩, h3, h4⟩
  cases n with
  | nil => simp at h1
  | cons c n => exact ⟨c, rfl, by simpa using h1⟩

theorem demoPage_writable : demoPage.Writable := by
  have tag : ∀ n ∈ names ["html", "head", "title", "body", "form", "b", "br", "a", "img", "ul", "li", "h1", "object", "table",
      "caption", "colgroup", "col", "tbody", "tr", "td", "i", "script"], Printable (.startTag n false []) := by
    intro n hn
    refine printable_tag ?_ ?_ ⟨by simp, by simp⟩ (by simp)
    · revert n; decide +kernel
    · unfold HtmlTok.NameChar; revert n; decide +kernel
  refine ⟨fun n q p y h => ?_, ?_⟩
  · cases h
    exact ⟨⟨_, rfl, ⟨'h', rfl, by decide, by decide⟩, by unfold HtmlTok.NameChar; decide +kernel⟩, rfl, rfl, rfl⟩
  · have attr : ∀ x ∈ [("html", "lang", "en"), ("meta", "charset", "utf-8"), ("body", "class", "x"), ("p", "id", "1")],
        Printable (.startTag x.1.toList false [(x.2.1.toList, x.2.2.toList)]) := by
      intro x hx
      refine printable_tag ?_ ?_ ⟨by simp, ?_⟩ ?_
      · revert x; decide +kernel
      · unfold HtmlTok.NameChar; revert x; decide +kernel
      · unfold HtmlTok.NameChar; revert x; decide +kernel
      · revert x; decide +kernel
    have raw : ∀ v n : Str, .text v ∈ [Tree.text "let x = 1 < 2;".toList] → n = "script".toList → RawOk n v := by
      rintro v n hv rfl
      simp only [List.mem_singleton, Tree.text.injEq] at hv
      subst hv
      exact ⟨by decide +kernel, fun _ => HtmlTok.noEndTag_of (by decide +kernel), fun _ => by decide +kernel⟩
    have raw' : ∀ v n : Str, .text v ∈ [Tree.text "A & B".toList] → n = "title".toList → RawOk n v := by
      rintro v n hv rfl
      simp only [List.mem_singleton, Tree.text.injEq] at hv
      subst hv
      exact ⟨by decide +kernel, fun h => absurd rfl h, fun h => absurd h (by decide +kernel)⟩
    unfold demoPage Page.root
    simp only [Tree.Writable, AllWritable, and_true]
    repeat' first
      | exact True.intro
      | exact tag _ (by decide +kernel)
      | exact attr ("html", "lang", "en") (by decide +kernel)
      | exact attr ("meta", "charset", "utf-8") (by decide +kernel)
      | exact attr ("body", "class", "x") (by decide +kernel)
      | exact attr ("p", "id", "1") (by decide +kernel)
      | exact fun h => absurd h (by decide +kernel)
      | exact fun _ v hv => raw v _ hv rfl
      | exact fun _ v hv => raw' v _ hv rfl
      | refine ⟨by decide +kernel, by decide +kernel, by decide +kernel, by decide +kernel, by decide +kernel⟩
      | apply And.intro

/-- the page of C106's example, as text, is parsed to that page -/
example (env : Env) : ∃ p, (∃ toks d, HtmlTok.Yields HtmlTok.demoEnv p demoPage.write .data (toks ++ [.eof]) ∧ Ends env (atStart toks) d) ∧
    ∀ toks d, HtmlTok.Yields HtmlTok.demoEnv p demoPage.write .data (toks ++ [.eof]) → Ends env (atStart toks) d → IsPage d demoPage :=
  (C107_serves env).imp fun p hp => C107_text HtmlTok.demoEnv rfl env p hp demoPage demoPage_fits demoPage_writable

end Verif.TreeBuild
