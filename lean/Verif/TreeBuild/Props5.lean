import Verif.TreeBuild.Props4

/-!
# C108: what is lost when a document is written and parsed again
-/
namespace Verif.TreeBuild
open Verif Verif.Dom
open Verif.HtmlTok (print Printable escape)

mutual
theorem tree_unique {d : Doc} : ∀ (t u : Tree) {i : Nat}, IsTree d i t → IsTree d i u → t = u
  | .elem n as kids, u, i, h, h' => by
    unfold IsTree at h
    obtain ⟨⟨e, h1, rfl, _, rfl⟩, h2⟩ := h
    cases u with
    | elem m bs kids' =>
      unfold IsTree at h'
      obtain ⟨⟨e', h3, rfl, _, rfl⟩, h4⟩ := h'
      rw [h1] at h3
      cases h3
      rw [trees_unique kids kids' h2 h4]
    | text v => unfold IsTree at h'; rw [h1] at h'; cases h'.1
    | comment v => unfold IsTree at h'; rw [h1] at h'; cases h'.1
  | .text v, u, i, h, h' => by
    unfold IsTree at h
    cases u with
    | elem m bs kids' =>
      unfold IsTree at h'
      obtain ⟨⟨e', h3, _⟩, _⟩ := h'
      rw [h.1] at h3; cases h3
    | text v => unfold IsTree at h'; rw [h.1] at h'; cases h'.1; rfl
    | comment v => unfold IsTree at h'; rw [h.1] at h'; cases h'.1
  | .comment v, u, i, h, h' => by
    unfold IsTree at h
    cases u with
    | elem m bs kids' =>
      unfold IsTree at h'
      obtain ⟨⟨e', h3, _⟩, _⟩ := h'
      rw [h.1] at h3; cases h3
    | text v => unfold IsTree at h'; rw [h.1] at h'; cases h'.1
    | comment v => unfold IsTree at h'; rw [h.1] at h'; cases h'.1; rfl
theorem trees_unique {d : Doc} : ∀ (ts us : List Tree) {l : List Nat}, AreTrees d l ts → AreTrees d l us → ts = us
  | [], us, l, h, h' => by
    unfold AreTrees at h
    subst h
    cases us with
    | nil => rfl
    | cons u us => unfold AreTrees at h'; obtain ⟨i, l', h1, _⟩ := h'; cases h1
  | t :: ts, us, l, h, h' => by
    unfold AreTrees at h
    obtain ⟨i, l', rfl, h1, h2⟩ := h
    cases us with
    | nil => unfold AreTrees at h'; cases h'
    | cons u us =>
      unfold AreTrees at h'
      obtain ⟨j, m, h3, h4, h5⟩ := h'
      cases h3
      rw [tree_unique t u h1 h4, trees_unique ts us h2 h5]
end

/-- a page with a body and nothing else -/
def bodyPage (body : List Tree) : Page := ⟨none, [], [], [], [], body⟩

theorem bodyPage_unique {d : Doc} {a b : List Tree} (ha : IsPage d (bodyPage a)) (hb : IsPage d (bodyPage b)) : a = b := by
  have := trees_unique _ _ ha.2 hb.2
  simp only [bodyPage, Page.root, List.cons.injEq, Tree.elem.injEq, true_and, and_true] at this
  exact this

theorem bodyPage_writable {body : List Tree} (h : AllWritable body) : (bodyPage body).Writable := by
  have tag : ∀ n ∈ names ["html", "head", "body"], Printable (.startTag n false []) := by
    intro n hn
    refine printable_tag ?_ ?_ ⟨by simp, by simp⟩ (by simp)
    · revert n; decide +kernel
    · unfold HtmlTok.NameChar; revert n; decide +kernel
  refine ⟨fun _ _ _ _ h => (by cases h), ?_⟩
  unfold bodyPage Page.root
  simp only [Tree.Writable, AllWritable, and_true]
  exact ⟨tag _ (by decide +kernel), fun h => absurd h (by decide +kernel),
    ⟨tag _ (by decide +kernel), fun h => absurd h (by decide +kernel)⟩,
    tag _ (by decide +kernel), fun h => absurd h (by decide +kernel), h⟩

/-- what is written for such a page, if this is what is written for what is in its body -/
theorem bodyPage_writes {order : List (Str × Str) → List (Str × Str)} (ho : ∀ as, (order as).Perm as) {d : Doc} {body : List Tree}
    (h : IsPage d (bodyPage body)) {x : Str} (hx : ∀ l, AreTrees d l body → AllWrite order d l x) :
    Writes order d 0 ("<html><head></head><body>".toList ++ (x ++ "</body></html>".toList)) := by
  have h0 : order [] = [] := List.Perm.eq_nil (ho [])
  refine writes_document h.1 ?_
  have h := h.2
  unfold bodyPage Page.root at h
  simp only at h
  unfold AreTrees AreTrees IsTree AreTrees AreTrees AreTrees IsTree AreTrees at h
  obtain ⟨r, l, h1, ⟨⟨e, he, en, _, ea⟩, a, l2, h2, ⟨⟨f, hf, fn, _, fa⟩, h3⟩, b, l3, h4, ⟨⟨g, hg, gn, _, ga⟩, h5⟩, h6⟩, h7⟩ := h
  rw [h1, h7]
  have wa := writes_element (order := order) hf (x := []) (by rw [h3]; exact .nil order d)
  have wb := writes_element (order := order) hg (hx _ (by unfold AreTrees; exact h5))
  have wr := writes_element (order := order) he (x := _) (by rw [h2, h4, h6]; exact .cons wa (.cons wb (.nil order d)))
  have := AllWrite.cons wr (.nil order d)
  have e0 : Writer.writeAttrs order [] = [] := by unfold Writer.writeAttrs; rw [h0]; rfl
  rw [en, ea, fn, fa, gn, ga, e0] at this
  simp only [List.nil_append, List.append_nil] at this
  simpa using this

/-- if what is written for a page is the text of another page, that is what it is read as -/
theorem lost {tenv : HtmlTok.Env} (hE : tenv.names = CharRef.tokenNamedChars) {env : Env} {p : HtmlTok.Parser} (hp : Serves env p)
    {a b : List Tree} (hb : AllFit .flow (names ["body", "html"]) b) (hw : AllWritable b) (hn : a ≠ b)
    {toks : List Token} {d' : Doc} (hy : HtmlTok.Yields tenv p (bodyPage b).write .data (toks ++ [.eof])) (he : Ends env (atStart toks) d') :
    ¬ IsPage d' (bodyPage a) := fun h =>
  hn (bodyPage_unique h ((C107_text tenv hE env p hp (bodyPage b) ⟨trivial, hb⟩ (bodyPage_writable hw)).2 toks d' hy he))

theorem text_writes {order : List (Str × Str) → List (Str × Str)} {d : Doc} {v : Str} (l : List Nat) (h : AreTrees d l [.text v]) :
    AllWrite order d l v := by
  unfold AreTrees AreTrees IsTree at h
  obtain ⟨i, l', rfl, ⟨h1, h2⟩, rfl⟩ := h
  have := AllWrite.cons (writes_text (order := order) h1 h2) (.nil order d)
  rwa [List.append_nil] at this

/-- **C108 violated**: text is written as it is, so a `<` in it is read as the start of a tag. -/
theorem C108_text_violated (tenv : HtmlTok.Env) (hE : tenv.names = CharRef.tokenNamedChars) (env : Env) (p : HtmlTok.Parser)
    (hp : Serves env p) : ∃ (P : Page) (d : Doc), P.fits ∧ P.Writable ∧ IsPage d P ∧
      ∀ order : List (Str × Str) → List (Str × Str), (∀ as, (order as).Perm as) → ∃ out, Writes order d 0 out ∧
        ∀ toks d', HtmlTok.Yields tenv p out .data (toks ++ [.eof]) → Ends env (atStart toks) d' → ¬ IsPage d' P := by
  have hf : (bodyPage [.text "<b>x</b>".toList]).fits := ⟨trivial, ⟨by decide +kernel, by decide +kernel⟩, trivial, by simp⟩
  obtain ⟨⟨d, hd⟩, h⟩ := C106_page env _ hf
  refine ⟨_, d, hf, bodyPage_writable (by simp [AllWritable, Tree.Writable]), h d hd, fun order ho => ?_⟩
  refine ⟨_, bodyPage_writes ho (h d hd) text_writes, fun toks d' hy he => ?_⟩
  refine lost hE hp (b := [.elem "b".toList [] [.text "x".toList]]) ?_ ?_ (by simp) hy he
  · refine ⟨Or.inr (Or.inr (Or.inr ⟨by decide +kernel, by decide +kernel, ⟨by decide +kernel, by decide +kernel, by decide +kernel,
      by decide +kernel, by decide +kernel, by decide +kernel⟩, ⟨by decide +kernel, by decide +kernel⟩, trivial, by simp⟩)), trivial, by simp⟩
  · simp only [AllWritable, Tree.Writable, and_true]
    exact ⟨printable_tag (by decide +kernel) (by unfold HtmlTok.NameChar; decide +kernel) ⟨by simp, by simp⟩ (by simp),
      fun h => absurd h (by decide +kernel)⟩

/-- **C108 violated**: an attribute's value is written as it is, so a `"` in it ends it and what follows is read as attributes. -/
theorem C108_attribute_violated (tenv : HtmlTok.Env) (hE : tenv.names = CharRef.tokenNamedChars) (env : Env) (p : HtmlTok.Parser)
    (hp : Serves env p) : ∃ (P : Page) (d : Doc), P.fits ∧ P.Writable ∧ IsPage d P ∧
      ∀ order : List (Str × Str) → List (Str × Str), (∀ as, (order as).Perm as) → ∃ out, Writes order d 0 out ∧
        ∀ toks d', HtmlTok.Yields tenv p out .data (toks ++ [.eof]) → Ends env (atStart toks) d' → ¬ IsPage d' P := by
  have fit : ∀ as, AllFit .flow (names ["body", "html"]) [.elem "p".toList as []] := fun as =>
    ⟨Or.inr (Or.inr (Or.inr ⟨by decide +kernel, by decide +kernel, ⟨by decide +kernel, by decide +kernel, by decide +kernel,
      by decide +kernel, by decide +kernel, by decide +kernel⟩, trivial⟩)), trivial, by simp⟩
  have wr : ∀ as, HtmlTok.AttrsOk as → (∀ a ∈ as, '=' ∉ a.1 ∧ Char.ofNat 0 ∉ a.2) → AllWritable [.elem "p".toList as []] := by
    intro as h1 h2
    simp only [AllWritable, Tree.Writable, and_true]
    exact ⟨printable_tag (by decide +kernel) (by unfold HtmlTok.NameChar; decide +kernel) h1 h2, fun h => absurd h (by decide +kernel)⟩
  have hf : (bodyPage [.elem "p".toList [("title".toList, "1\" id=\"2".toList)] []]).fits := ⟨trivial, fit _⟩
  obtain ⟨⟨d, hd⟩, h⟩ := C106_page env _ hf
  refine ⟨_, d, hf, bodyPage_writable (wr _ ⟨by decide +kernel, by unfold HtmlTok.NameChar; decide +kernel⟩ (by decide +kernel)), h d hd,
    fun order ho => ?_⟩
  have hx : ∀ l, AreTrees d l [.elem "p".toList [("title".toList, "1\" id=\"2".toList)] []] →
      AllWrite order d l "<p title=\"1\" id=\"2\"></p>".toList := by
    intro l hl
    unfold AreTrees IsTree AreTrees at hl
    obtain ⟨i, l', rfl, ⟨⟨e, h1, en, _, ea⟩, h2⟩, rfl⟩ := hl
    have h3 := writes_element (order := order) h1 (x := []) (by rw [h2]; exact .nil order d)
    have h4 : order e.attrs = e.attrs := by rw [ea]; exact List.perm_singleton.1 (ho _)
    have h5 := AllWrite.cons h3 (.nil order d)
    unfold Writer.writeAttrs at h5
    rw [h4, ea, en] at h5
    exact h5
  refine ⟨_, bodyPage_writes ho (h d hd) hx, fun toks d' hy he => ?_⟩
  exact lost hE hp (fit [("title".toList, "1".toList), ("id".toList, "2".toList)])
    (wr _ ⟨by decide +kernel, by unfold HtmlTok.NameChar; decide +kernel⟩ (by decide +kernel)) (by simp) hy he

/-! ## Elements without end tag -/

def brToks : List Token :=
  [.startTag "html".toList false [], .startTag "head".toList false [], .endTag "head".toList, .startTag "body".toList false [],
   .startTag "br".toList false [], .endTag "br".toList, .endTag "body".toList, .endTag "html".toList]

/-- the end tag of a `br` is read as a `br` -/
theorem br_end {env : Env} {s : St} {above : List Str} (h : Inside s above) (hm : s.mode = .inBody) :
    ∃ s', Reads env s [.endTag "br".toList] s' ∧ After s s' [s.doc.nextId] ∧ TreeFrom s'.doc s.doc.nextId s.doc.nextId (.elem "br".toList [] []) := by
  obtain ⟨d1, e1, hA⟩ := insertVoid_new h.hush "br".toList []
  refine ⟨{ hush s with doc := d1, framesetOk := false }, ?_, ⟨⟨rfl, rfl, rfl, rfl, rfl, rfl, rfl⟩, rfl, rfl, rfl, Trim.refl _, hA.grow⟩, childless hA⟩
  refine read_done h.isPlain ?_ ⟨h.queue, rfl⟩
  have hb : byMode env .inBody (.endTag "br".toList) = fin (do
      reconstruct
      insertVoid "br".toList []
      noFrameset) := by
    have h1 : is "br".toList "template" = false ∧ is "br".toList "body" = false ∧ is "br".toList "html" = false ∧
      oneOf "br".toList blockEnd = false ∧ is "br".toList "form" = false ∧ is "br".toList "p" = false ∧ is "br".toList "li" = false ∧
      oneOf "br".toList ["dd", "dt"] = false ∧ oneOf "br".toList headings = false ∧ is "br".toList "sarcasm" = false ∧
      oneOf "br".toList formattingEnd = false ∧ oneOf "br".toList ["applet", "marquee", "object"] = false ∧
      is "br".toList "br" = true := by decide +kernel
    obtain ⟨a1, a2, a3, a4, a5, a6, a7, a8, a9, a10, a11, a12, a13⟩ := h1
    simp only [byMode, inBody, inBodyEnd, a1, a2, a3, a4, a5, a6, a7, a8, a9, a10, a11, a12, a13, Bool.false_eq_true, if_false, if_true]
  rw [hm, hb]
  apply fin_some
  rw [bind_some h.hush.rebuilt, bind_some e1]
  rfl

theorem brs_read (env : Env) : BodyReads env [.startTag "br".toList false [], .endTag "br".toList]
    [.elem "br".toList [] [], .elem "br".toList [] []] := by
  intro s hR hA hm hN
  obtain ⟨s1, i, r1, a1, t1⟩ := flow_void (env := env) hR hA (n := "br".toList) [] (by decide +kernel) (by decide +kernel)
    (fun h => absurd h (by decide +kernel))
  unfold Tree.tokens at r1
  rw [if_pos (by decide +kernel)] at r1
  obtain ⟨s2, r2, a2, t2⟩ := br_end (env := env) (a1.ready hR) (a1.mode.trans hm)
  refine ⟨s2, [i, s1.doc.nextId], r1.trans r2, a1.trans a2, ?_⟩
  have hg : Grow s1.doc s2.doc (current s) [s1.doc.nextId] := by rw [← a1.current]; exact a2.grow
  exact treesFrom_cons (hR.lt hR.cur) a1.grow.next hg t1 ⟨_, _, rfl, t2, rfl⟩

theorem brToks_read (env : Env) {d : Doc} (h : Ends env (atStart brToks) d) :
    IsPage d (bodyPage [.elem "br".toList [] [], .elem "br".toList [] []]) := by
  have hU := unrooted_document
  obtain ⟨s', r, p, m, g, t⟩ := root_read env hU (Or.inl rfl) (bodyPage [.elem "br".toList [] [], .elem "br".toList [] []]) trivial (brs_read env)
  have hi : IsPage s'.doc (bodyPage [.elem "br".toList [] [], .elem "br".toList [] []]) := by
    refine ⟨g.data (by decide) |>.trans rfl, ?_⟩
    have hc : children s'.doc 0 = [St.document.doc.nextId] := by
      rw [g.children hU.root]; rfl
    exact ⟨_, _, hc, t, rfl⟩
  obtain ⟨k, hk⟩ := r.1 []
  rw [List.append_nil] at hk
  have e : Loop.run env (atStart brToks) (k + 1) = some ⟨{ s' with finished := true }, none, []⟩ := by
    rw [show atStart brToks = ⟨St.document, none, brToks⟩ from rfl]
    exact (run_more env hk 1).trans (eof_read env p m)
  obtain ⟨j, b, g1, g2, rfl⟩ := h
  rw [run_unique g1 g2 e rfl]
  exact hi

/-- the answers that matter -/
def startsOnly (p : HtmlTok.Parser) : HtmlTok.Parser where
  switch got := match got.getLast? with
    | some (.startTag _ _ _) => p.switch got
    | _ => none
  foreign := p.foreign

theorem startsOnly_step (tenv : HtmlTok.Env) (p : HtmlTok.Parser) : HtmlTok.Run.step tenv (startsOnly p) = HtmlTok.Run.step tenv p := by
  funext r
  unfold HtmlTok.Run.step
  have : ∀ k s, HtmlTok.afterToken (startsOnly p) (r.got ++ [k]) s k = HtmlTok.afterToken p (r.got ++ [k]) s k := by
    intro k s
    cases k <;> simp [HtmlTok.afterToken, startsOnly]
  simp only [this]
  rfl

theorem startsOnly_yields {tenv : HtmlTok.Env} {p : HtmlTok.Parser} {x : Str} {c : HtmlTok.Content} {toks : List Token}
    (h : HtmlTok.Yields tenv (startsOnly p) x c toks) : HtmlTok.Yields tenv p x c toks := by
  unfold HtmlTok.Yields at h ⊢
  rwa [startsOnly_step] at h

theorem brToks_yields {tenv : HtmlTok.Env} (hE : tenv.names = CharRef.tokenNamedChars) {env : Env} {p : HtmlTok.Parser} (hp : Serves env p)
    (hf : (bodyPage [.elem "br".toList [] []]).fits) :
    HtmlTok.Yields tenv p "<html><head></head><body><br></br></body></html>".toList .data (brToks ++ [.eof]) := by
  refine startsOnly_yields ?_
  obtain ⟨s', r, _⟩ := page_read env _ hf
  have hs : ∀ g t, g ++ [t] <+: (bodyPage [.elem "br".toList [] []]).tokens → p.switch (g ++ [t]) = asks t := by
    intro g t hg
    obtain ⟨s1, h1, h2, h3⟩ := r.2 g t hg
    rw [hp _ s1 h1 h2, h3]
  refine HtmlTok.C91_round_trip tenv hE (startsOnly p) brToks ?_ (HtmlTok.apart_of (by decide +kernel)) (HtmlTok.prefixes_of ?_)
  · have st : ∀ n ∈ names ["html", "head", "body", "br"], Printable (.startTag n false []) ∧ Printable (.endTag n) := by
      intro n hn
      have : Printable (.startTag n false []) := by
        refine printable_tag ?_ ?_ ⟨by simp, by simp⟩ (by simp)
        · revert n; decide +kernel
        · unfold HtmlTok.NameChar; revert n; decide +kernel
      exact ⟨this, this.1⟩
    intro k hk
    simp only [brToks, List.mem_cons, List.not_mem_nil, or_false] at hk
    rcases hk with rfl | rfl | rfl | rfl | rfl | rfl | rfl | rfl
    · exact (st _ (by decide +kernel)).1
    · exact (st _ (by decide +kernel)).1
    · exact (st _ (by decide +kernel)).2
    · exact (st _ (by decide +kernel)).1
    · exact (st _ (by decide +kernel)).1
    · exact (st _ (by decide +kernel)).2
    · exact (st _ (by decide +kernel)).2
    · exact (st _ (by decide +kernel)).2
  · intro n hn
    have hc : n = 0 ∨ n = 1 ∨ n = 2 ∨ n = 3 ∨ n = 4 ∨ n = 5 ∨ n = 6 ∨ n = 7 ∨ n = 8 := by
      have : brToks.length = 8 := rfl
      omega
    rcases hc with rfl | rfl | rfl | rfl | rfl | rfl | rfl | rfl | rfl
    · rfl
    · exact hs (brToks.take 0) (.startTag "html".toList false []) ⟨_, rfl⟩
    · exact hs (brToks.take 1) (.startTag "head".toList false []) ⟨_, rfl⟩
    · rfl
    · exact hs (brToks.take 3) (.startTag "body".toList false []) ⟨_, rfl⟩
    · exact hs (brToks.take 4) (.startTag "br".toList false []) ⟨_, rfl⟩
    · rfl
    · rfl
    · rfl

/-- **C108 violated**: elements that have no end tag are written with one, so that a `br` is read as two. -/
theorem C108_void_violated (tenv : HtmlTok.Env) (hE : tenv.names = CharRef.tokenNamedChars) (env : Env) (p : HtmlTok.Parser)
    (hp : Serves env p) : ∃ (P : Page) (d : Doc), P.fits ∧ P.Writable ∧ IsPage d P ∧
      ∀ order : List (Str × Str) → List (Str × Str), (∀ as, (order as).Perm as) → ∃ out, Writes order d 0 out ∧
        ∀ toks d', HtmlTok.Yields tenv p out .data (toks ++ [.eof]) → Ends env (atStart toks) d' → ¬ IsPage d' P := by
  have hf : (bodyPage [.elem "br".toList [] []]).fits :=
    ⟨trivial, Or.inl ⟨by decide +kernel, by decide +kernel, rfl, fun h => absurd h (by decide +kernel)⟩, trivial, by simp⟩
  obtain ⟨⟨d, hd⟩, h⟩ := C106_page env _ hf
  refine ⟨_, d, hf, bodyPage_writable ?_, h d hd, fun order ho => ?_⟩
  · simp only [AllWritable, Tree.Writable, and_true]
    exact ⟨printable_tag (by decide +kernel) (by unfold HtmlTok.NameChar; decide +kernel) ⟨by simp, by simp⟩ (by simp),
      fun h => absurd h (by decide +kernel)⟩
  have hx : ∀ l, AreTrees d l [.elem "br".toList [] []] → AllWrite order d l "<br></br>".toList := by
    intro l hl
    unfold AreTrees IsTree AreTrees at hl
    obtain ⟨i, l', rfl, ⟨⟨e, h1, en, _, ea⟩, h2⟩, rfl⟩ := hl
    have h3 := writes_element (order := order) h1 (x := []) (by rw [h2]; exact .nil order d)
    have h4 : order e.attrs = e.attrs := by rw [ea]; exact List.perm_nil.1 (ho _)
    have h5 := AllWrite.cons h3 (.nil order d)
    unfold Writer.writeAttrs at h5
    rw [h4, ea, en] at h5
    exact h5
  refine ⟨_, bodyPage_writes ho (h d hd) hx, fun toks d' hy he hi => ?_⟩
  have := List.append_cancel_right (HtmlTok.yields_unique hy (brToks_yields hE hp hf))
  subst this
  exact absurd (bodyPage_unique hi (brToks_read env he)) (by simp)

/-! A page that C108 does speak of. -/

def blandPage : Page := bodyPage [.elem "p".toList [("id".toList, "1".toList), ("title".toList, "x y".toList)]
  [.text "one".toList, .elem "b".toList [] [.text "two".toList], .comment "<&>".toList], .elem "script".toList [] [.text "a < b && c".toList]]

theorem blandPage_fits : blandPage.fits := by
  have st : ∀ {above : List Str} {n : Str} {as : Attrs} {kids : List Tree}, n ∉ voids → n ∉ texts → MayBe above n →
      AllFit .flow (n :: above) kids → Fits .flow above (.elem n as kids) := fun h1 h2 h3 h4 => Or.inr (Or.inr (Or.inr ⟨h1, h2, h3, h4⟩))
  have tx : ∀ {above : List Str} {v : Str}, v ≠ [] → Char.ofNat 0 ∉ v → Fits .flow above (.text v) := fun h1 h2 => ⟨h1, h2⟩
  refine ⟨trivial, ⟨st (by decide +kernel) (by decide +kernel) ⟨by decide +kernel, by decide +kernel, by decide +kernel,
    by decide +kernel, by decide +kernel, by decide +kernel⟩ ⟨tx (by decide +kernel) (by decide +kernel), ⟨?_, ⟨trivial, trivial, by simp⟩, ?_⟩, ?_⟩,
    ⟨Or.inr (Or.inl ⟨by decide +kernel, Or.inr ⟨_, by decide +kernel, rfl⟩, fun h => absurd h (by decide +kernel)⟩), trivial, by simp⟩, ?_⟩⟩
  · exact st (by decide +kernel) (by decide +kernel) ⟨by decide +kernel, by decide +kernel, by decide +kernel,
      by decide +kernel, by decide +kernel, by decide +kernel⟩ ⟨tx (by decide +kernel) (by decide +kernel), trivial, by simp⟩
  · simp [Tree.isText]
  · simp [Tree.isText]
  · simp [Tree.isText]

theorem blandPage_writable : blandPage.Writable := by
  have tag : ∀ n ∈ names ["b", "script"], Printable (.startTag n false []) := by
    intro n hn
    refine printable_tag ?_ ?_ ⟨by simp, by simp⟩ (by simp)
    · revert n; decide +kernel
    · unfold HtmlTok.NameChar; revert n; decide +kernel
  refine bodyPage_writable ?_
  simp only [AllWritable, Tree.Writable, and_true, true_and]
  refine ⟨⟨printable_tag (by decide +kernel) (by unfold HtmlTok.NameChar; decide +kernel)
    ⟨by decide +kernel, by unfold HtmlTok.NameChar; decide +kernel⟩ (by decide +kernel), fun h => absurd h (by decide +kernel),
    ⟨tag _ (by decide +kernel), fun h => absurd h (by decide +kernel)⟩,
    ⟨by decide +kernel, by decide +kernel, by decide +kernel, by decide +kernel, by decide +kernel⟩⟩, tag _ (by decide +kernel), fun _ v hv => ?_⟩
  simp only [List.mem_singleton, Tree.text.injEq] at hv
  subst hv
  exact ⟨by decide +kernel, fun _ => HtmlTok.noEndTag_of (by decide +kernel), fun _ => by decide +kernel⟩

theorem blandPage_bland : blandPage.Bland := by
  have n0 : "html".toList ∉ voids ∧ "head".toList ∉ voids ∧ "body".toList ∉ voids ∧ "p".toList ∉ voids ∧ "b".toList ∉ voids ∧
    "script".toList ∉ voids ∧ "script".toList ∈ texts ∧ "script".toList ≠ "title".toList := by decide +kernel
  obtain ⟨a1, a2, a3, a4, a5, a6, a7, a8⟩ := n0
  unfold Page.Bland blandPage bodyPage Page.root
  simp only [Tree.Bland, AllBland, and_true, true_and]
  refine ⟨a1, by simp, Or.inr ⟨⟨a2, by simp, Or.inr trivial⟩, a3, by simp, Or.inr ⟨⟨a4, by unfold Simple; decide +kernel,
    Or.inr ⟨by unfold Simple; decide +kernel, a5, by simp, Or.inr (by unfold Simple; decide +kernel)⟩⟩, a6, by simp, Or.inl ⟨a7, a8⟩⟩⟩⟩

/-- its hypotheses are met: the document of this page is written and parsed to this page -/
example (env : Env) (order : List (Str × Str) → List (Str × Str)) (ho : ∀ as, (order as).Perm as) : ∃ p d, IsPage d blandPage ∧
    ∃ out, Writes order d 0 out ∧ ∃ toks d', HtmlTok.Yields HtmlTok.demoEnv p out .data (toks ++ [.eof]) ∧ Ends env (atStart toks) d' ∧
      IsPage d' (blandPage.reorder order) := by
  obtain ⟨p, hp⟩ := C107_serves env
  obtain ⟨⟨d, hd⟩, h⟩ := C106_page env blandPage blandPage_fits
  obtain ⟨out, h1, _, ⟨toks, d', h2, h3⟩, h4⟩ := C108_round_trip_partial HtmlTok.demoEnv rfl env p hp order ho blandPage blandPage_fits
    blandPage_writable blandPage_bland d (h d hd)
  exact ⟨p, d, h d hd, out, h1, toks, d', h2, h3, h4 toks d' h2 h3⟩

end Verif.TreeBuild
