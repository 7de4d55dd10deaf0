import Verif.TreeBuild.Trip8
import Verif.TreeBuild.Props

/-!
# C106: a page written out as tokens is read back as the same page
-/
namespace Verif.TreeBuild
open Verif Verif.Dom

/-! ## A node under the document node -/

theorem root_new {s : St} (ha : Arena s.doc) (h0 : live s.doc 0) (data : Data) : ∃ d1,
    insertAt s.doc.nextId (.lastChild 0) { s with doc := (register s.doc data).1 } = some ((), { s with doc := d1 }) ∧
    Added s.doc d1 0 data := by
  obtain ⟨d1, h1, hA⟩ := add_ok ha h0 data
  refine ⟨d1, ?_, hA⟩
  show (dom (.attach s.doc.nextId 0 none) { s with doc := (register s.doc data).1 }).map _ = _
  rw [dom_eq (attach_step h1)]
  rfl

theorem insertRoot_new {s : St} (ha : Arena s.doc) (h0 : live s.doc 0) (as : Attrs) : ∃ d1,
    insertRoot as s = some ((), { s with doc := d1, opened := s.doc.nextId :: s.opened }) ∧
    Added s.doc d1 0 (elementData "html".toList htmlNs as) := by
  obtain ⟨d1, h1, hA⟩ := root_new ha h0 (elementData "html".toList htmlNs as)
  refine ⟨d1, ?_, hA⟩
  unfold insertRoot
  rw [bind_some (dom_new rfl)]
  rw [show (register s.doc (elementData "html".toList htmlNs as)).2 = s.doc.nextId from rfl, bind_some h1]
  rfl

theorem insertDoctype_new {s : St} (ha : Arena s.doc) (h0 : live s.doc 0) (n p y : Option Str) : ∃ d1,
    insertDoctype n p y s = some ((), { s with doc := d1 }) ∧ Added s.doc d1 0 (.doctype (n.getD []) (p.getD []) (y.getD [])) := by
  obtain ⟨d1, h1, hA⟩ := root_new ha h0 (.doctype (n.getD []) (p.getD []) (y.getD []))
  refine ⟨d1, ?_, hA⟩
  unfold insertDoctype
  rw [bind_some (dom_new rfl)]
  exact h1

/-! ## From the root element on -/

/-- a state before the root element -/
structure Unrooted (s : St) : Prop where
  arena : Arena s.doc
  root : live s.doc 0
  foster : s.foster = false
  lf : s.ignoreLf = false
  queue : s.queue = []
  context : s.context = none
  tmodes : s.templateModes = []
  fin : s.finished = false
  opened : s.opened = []
  active : s.active = []
  form : s.form = none

theorem Unrooted.isPlain {s : St} (h : Unrooted s) : Plain s :=
  ⟨h.fin, h.queue, h.lf, fun t => by unfold isForeign; rw [h.opened]; rfl⟩

/-- the state with the root element open -/
def rooted (s : St) (d1 : Doc) : St := { s with doc := d1, opened := [s.doc.nextId], mode := .beforeHead }

theorem Unrooted.ready {s : St} (h : Unrooted s) {d1 : Doc} {as : Attrs} (hA : Added s.doc d1 0 (elementData "html".toList htmlNs as)) :
    Inside (rooted s d1) ["html".toList] where
  arena := hA.arena
  foster := h.foster
  lf := h.lf
  queue := h.queue
  context := h.context
  tmodes := h.tmodes
  fin := h.fin
  tags := by
    show [tag d1 s.doc.nextId] = _
    rw [added_tag hA]
  here := fun x hx => by
    have hx : x ∈ [s.doc.nextId] := hx
    rw [List.mem_singleton] at hx
    subst hx
    exact ⟨by show live d1 _; unfold live; rw [hA.new]; rfl, by
      show isHtml d1 _ = true
      unfold isHtml ns elem; rw [hA.new]; simp [elemOf, elementData]⟩
  nodup := by show [s.doc.nextId].Nodup; simp
  stack := by show [s.doc.nextId] ≠ []; simp
  act := by show (s.active.filterMap id).Sublist _; rw [h.active]; simp
  form := fun _ => h.form
  plain := by decide +kernel

theorem beforeHtml_start (as : Attrs) : beforeHtml (.startTag "html".toList false as) = fin (do
    insertRoot as
    setMode .beforeHead) := by
  have h1 : is "html".toList "html" = true := by decide +kernel
  simp only [beforeHtml, h1, if_true]

theorem beforeHead_start (env : Env) (as : Attrs) : byMode env .beforeHead (.startTag "head".toList false as) = fin (startHead as) := by
  have h1 : is "head".toList "html" = false := by decide +kernel
  have h2 : is "head".toList "head" = true := by decide +kernel
  simp only [byMode, beforeHead, h1, h2, Bool.false_eq_true, if_false, if_true]

theorem head_close (env : Env) : byMode env .inHead (.endTag "head".toList) = fin (do
    pop
    setMode .afterHead) := by
  have h2 : is "head".toList "head" = true := by decide +kernel
  simp only [byMode, inHead, h2, if_true]

theorem afterHead_start (env : Env) (as : Attrs) : byMode env .afterHead (.startTag "body".toList false as) = fin (do
    insert_ "body".toList as
    noFrameset
    setMode .inBody) := by
  have h1 : is "body".toList "html" = false := by decide +kernel
  have h2 : is "body".toList "body" = true := by decide +kernel
  simp only [byMode, afterHead, h1, h2, Bool.false_eq_true, if_false, if_true]

theorem inBody_end (env : Env) : byMode env .inBody (.endTag "body".toList) =
    ifM (inScopeS "body" .regular) (fin (setMode .afterBody)) ignore := by
  have h1 : is "body".toList "template" = false := by decide +kernel
  have h2 : is "body".toList "body" = true := by decide +kernel
  simp only [byMode, inBody, inBodyEnd, h1, h2, Bool.false_eq_true, if_false, if_true]

theorem afterBody_end (env : Env) : byMode env .afterBody (.endTag "html".toList) =
    ifM (fun s => s.context.isSome) ignore (fin (setMode .afterAfterBody)) := by
  have h1 : is "html".toList "html" = true := by decide +kernel
  simp only [byMode, afterBody, h1, if_true]

/-- in a body, these tokens are read as these trees -/
def BodyReads (env : Env) (toks : List Token) (ts : List Tree) : Prop :=
  ∀ s, Inside s (names ["body", "html"]) → At s .flow → s.mode = .inBody → NoText s →
    ∃ s' new, Reads env s toks s' ∧ After s s' new ∧ TreesFrom s'.doc s.doc.nextId new ts

/-- the rest of a page, from the content of the root element on -/
theorem rest_read (env : Env) {s : St} {r : Nat} (h : Inside s ["html".toList]) (hr : s.opened = [r]) (hm : s.mode = .beforeHead)
    (P : Page) (hP1 : AllFit .head (names ["head", "html"]) P.head) {toks : List Token} (hB : BodyReads env toks P.body) :
    ∃ s' new, Reads env s ([.startTag "head".toList false P.headAttrs] ++ (allTokens P.head ++ ([.endTag "head".toList] ++
        ([.startTag "body".toList false P.bodyAttrs] ++ (toks ++ ([.endTag "body".toList] ++ [.endTag "html".toList])))))) s' ∧
      Plain s' ∧ s'.mode = .afterAfterBody ∧ Grow s.doc s'.doc r new ∧
      TreesFrom s'.doc s.doc.nextId new [.elem "head".toList P.headAttrs P.head, .elem "body".toList P.bodyAttrs P.body] := by
  have hcur : current s = r := by unfold current; rw [hr]; rfl
  -- the head
  obtain ⟨d1, e1, hA1⟩ := insertHtml_new h.hush "head".toList P.headAttrs
  obtain ⟨s1, hs1⟩ : ∃ s1, s1 = ({ opening (hush s) d1 with head := some s.doc.nextId, mode := .inHead } : St) := ⟨_, rfl⟩
  have d1eq : s1.doc = d1 := by rw [hs1]; rfl
  have o1 : s1.opened = s.doc.nextId :: s.opened := by rw [hs1]; rfl
  have m1 : s1.mode = .inHead := by rw [hs1]
  have r1 : Reads env s [.startTag "head".toList false P.headAttrs] s1 := by
    refine read_done h.isPlain ?_ (by rw [hs1]; exact ⟨h.queue, rfl⟩)
    rw [hm, beforeHead_start]
    apply fin_some
    unfold startHead
    rw [bind_some e1, hs1]
    rfl
  have hA1' : Added s.doc s1.doc (current s) (elementData "head".toList htmlNs P.headAttrs) := by rw [d1eq]; exact hA1
  have a1 : s1.active = s.active := by rw [hs1]; rfl
  have R1 : Inside s1 ("head".toList :: ["html".toList]) := by
    have hx : (some s.doc.nextId = none ∨ True) := Or.inr trivial
    refine ⟨hA1'.arena, ?_, ?_, ?_, ?_, ?_, ?_, ?_, ?_, ?_, ?_, ?_, ?_, ?_⟩
    · rw [hs1]; exact h.foster
    · rw [hs1]; exact h.lf
    · rw [hs1]; exact h.queue
    · rw [hs1]; exact h.context
    · rw [hs1]; exact h.tmodes
    · rw [hs1]; exact h.fin
    · rw [o1, List.map_cons, added_tag hA1', ← h.tags]
      congr 1
      exact List.map_congr_left fun x hx => hA1'.grow.tag (h.lt hx)
    · intro x hx
      rw [o1, List.mem_cons] at hx
      rcases hx with rfl | hx
      · exact ⟨by unfold live; rw [hA1'.new]; rfl, by unfold isHtml ns elem; rw [hA1'.new]; simp [elemOf, elementData]⟩
      · obtain ⟨g1, g2⟩ := h.here x hx
        exact ⟨(hA1'.grow.live (h.lt hx)).2 g1, by rw [hA1'.grow.isHtml (h.lt hx)]; exact g2⟩
    · rw [o1, List.nodup_cons]
      exact ⟨fun hx => Nat.lt_irrefl _ (h.lt hx), h.nodup⟩
    · rw [o1]; exact List.cons_ne_nil _ _
    · rw [o1, a1]; exact h.act.trans (List.sublist_cons_self _ _)
    · intro _; rw [hs1]; exact h.form (by decide +kernel)
    · decide +kernel
  obtain ⟨s2, new1, r2, a2, t2⟩ := trees_read env P.head hP1 trivial R1 m1 fun _ _ _ => new_noText hA1' o1
  have hcur1 : current s1 = s.doc.nextId := by unfold current; rw [o1]; rfl
  have g2 : Grow s1.doc s2.doc s.doc.nextId new1 := by rw [← hcur1]; exact a2.grow
  have R2 := a2.ready R1
  -- after the head
  obtain ⟨s3, hs3⟩ : ∃ s3, s3 = ({ closing (hush s2) s.opened with mode := .afterHead } : St) := ⟨_, rfl⟩
  have r3 : Reads env s2 [.endTag "head".toList] s3 := by
    refine read_done R2.isPlain ?_ (by rw [hs3]; exact ⟨R2.queue, rfl⟩)
    rw [a2.mode, m1, head_close]
    apply fin_some
    rw [bind_some (R2.hush.top (show (hush s2).opened = _ from a2.opened.trans o1)).pop, hs3]
    rfl
  have gs : Grow s.doc s2.doc (current s) [s.doc.nextId] := hA1'.under (h.lt h.cur) g2
  have d3eq : s3.doc = s2.doc := by rw [hs3]; rfl
  have o3 : s3.opened = s.opened := by rw [hs3]; rfl
  have R3 : Inside s3 ["html".toList] := by
    refine ⟨by rw [d3eq]; exact gs.arena, ?_, ?_, ?_, ?_, ?_, ?_, ?_, ?_, ?_, ?_, ?_, ?_, ?_⟩
    · rw [hs3]; exact R2.foster
    · rw [hs3]; exact R2.lf
    · rw [hs3]; exact R2.queue
    · rw [hs3]; exact R2.context
    · rw [hs3]; exact R2.tmodes
    · rw [hs3]; exact R2.fin
    · rw [o3, d3eq, ← h.tags]
      exact List.map_congr_left fun x hx => gs.tag (h.lt hx)
    · intro x hx
      rw [o3] at hx
      obtain ⟨g1, g2⟩ := h.here x hx
      rw [d3eq]
      exact ⟨(gs.live (h.lt hx)).2 g1, by rw [gs.isHtml (h.lt hx)]; exact g2⟩
    · rw [o3]; exact h.nodup
    · rw [o3]; exact h.stack
    · have : s3.active = s2.active := by rw [hs3]; rfl
      rw [o3, this]
      have hs : s2.active.Sublist s.active := by rw [← a1]; exact a2.act.sub
      exact (hs.filterMap id).trans h.act
    · intro _; rw [hs3]; exact R2.form (by decide +kernel)
    · decide +kernel
  have m3 : s3.mode = .afterHead := by rw [hs3]
  -- the body
  obtain ⟨d4, e4, hA4⟩ := insert_new R3.hush "body".toList P.bodyAttrs
  obtain ⟨s4, hs4⟩ : ∃ s4, s4 = ({ opening (hush s3) d4 with framesetOk := false, mode := .inBody } : St) := ⟨_, rfl⟩
  have o4 : s4.opened = s3.doc.nextId :: s3.opened := by rw [hs4]; rfl
  have m4 : s4.mode = .inBody := by rw [hs4]
  have hA4' : Added s3.doc s4.doc (current s3) (elementData "body".toList htmlNs P.bodyAttrs) := by rw [hs4]; exact hA4
  have r4 : Reads env s3 [.startTag "body".toList false P.bodyAttrs] s4 := by
    refine read_done R3.isPlain ?_ (by rw [hs4]; exact ⟨R3.queue, rfl⟩)
    rw [m3, afterHead_start]
    apply fin_some
    rw [bind_some e4, hs4]
    rfl
  have R4 : Inside s4 ("body".toList :: ["html".toList]) := by
    refine R3.push (s' := s4) (by rw [hs4]; exact ⟨rfl, rfl, rfl, rfl, rfl, rfl, rfl⟩) hA4' o4 ?_ (fun _ => by rw [hs4]; rfl) (by decide +kernel)
    rw [o4, hs4]
    exact R3.act.trans (List.sublist_cons_self _ _)
  have A4 : At s4 .flow := by
    refine ⟨Or.inl m4, ?_⟩
    rw [o4, o3, hr, m4]
    unfold resetMode
    have : modeFor s4 false s3.doc.nextId [r] = some .inBody := by
      unfold modeFor
      simp only [added_tag hA4']
      rfl
    rw [this]
  obtain ⟨s5, new2, r5, a5, t5⟩ := hB s4 R4 A4 m4 (new_noText hA4' o4)
  have hcur4 : current s4 = s3.doc.nextId := by unfold current; rw [o4]; rfl
  have g5 : Grow s4.doc s5.doc s3.doc.nextId new2 := by rw [← hcur4]; exact a5.grow
  have R5 := a5.ready R4
  have r6 : Reads env s5 [.endTag "body".toList] { hush s5 with mode := .afterBody } := by
    refine read_done R5.isPlain ?_ ⟨R5.queue, rfl⟩
    rw [a5.mode, m4, inBody_end]
    have top := R5.hush.top (show (hush s5).opened = _ from a5.opened.trans o4)
    rw [if_yes (show inScopeS "body" .regular (hush s5) = true from top.inScope .regular)]
    rfl
  have P6 : Plain ({ hush s5 with mode := .afterBody } : St) := by
    obtain ⟨q1, q2, q3, q4⟩ := R5.isPlain
    exact ⟨q1, q2, q3, q4⟩
  have r7 : Reads env { hush s5 with mode := .afterBody } [.endTag "html".toList] { hush s5 with mode := .afterAfterBody } := by
    refine read_done P6 ?_ ⟨R5.queue, rfl⟩
    show byMode env .afterBody _ _ = _
    rw [afterBody_end, if_not (show (s5.context).isSome = false by rw [R5.context]; rfl)]
    rfl
  -- together
  have hc3 : current s3 = r := by unfold current; rw [o3, hr]; rfl
  have gb : Grow s3.doc s5.doc r [s3.doc.nextId] := by rw [← hc3]; exact hA4'.under (R3.lt R3.cur) g5
  have ga : Grow s.doc s3.doc r [s.doc.nextId] := by rw [d3eq, ← hcur]; exact gs
  refine ⟨{ hush s5 with mode := .afterAfterBody }, [s.doc.nextId, s3.doc.nextId], ?_, ?_, rfl, ga.trans gb, ?_⟩
  · exact r1.trans (r2.trans (r3.trans (r4.trans (r5.trans (r6.trans r7)))))
  · obtain ⟨q1, q2, q3, q4⟩ := R5.isPlain
    exact ⟨q1, q2, q3, q4⟩
  · have t1 : TreeFrom s3.doc s.doc.nextId s.doc.nextId (.elem "head".toList P.headAttrs P.head) := by
      rw [d3eq]; exact treeFrom_elem hA1' g2 t2
    have t4 : TreeFrom s5.doc s3.doc.nextId s3.doc.nextId (.elem "body".toList P.bodyAttrs P.body) := treeFrom_elem hA4' g5 t5
    have hlt : r < s.doc.nextId := by rw [← hcur]; exact h.lt h.cur
    exact treesFrom_cons hlt ga.next gb t1 ⟨_, _, rfl, t4, rfl⟩

theorem eof_read (env : Env) {s : St} (h : Plain s) (hm : s.mode = .afterAfterBody) :
    Loop.run env ⟨s, none, []⟩ 1 = some ⟨{ s with finished := true }, none, []⟩ := by
  have hn : Loop.next ⟨s, none, []⟩ = ((.eof, false), ⟨s, none, []⟩) := by
    unfold Loop.next
    simp only [Loop.fetch, h.queue, h.foreign]
  have hd : dispatch env (.eof, false) s = some (.done, { s with finished := true }) := by
    show processHtml env .eof s = _
    rw [processHtml_plain h.lf, show byMode env s.mode .eof = fin stop by rw [hm]; rfl]
    rfl
  unfold Loop.run Loop.step
  simp only [h.fin, Bool.false_eq_true, if_false, hn, hd]
  rfl

/-- the tokens of a page's root element, if these are those of its body -/
def Page.around (P : Page) (toks : List Token) : List Token :=
  [.startTag "html".toList false P.attrs] ++ ([.startTag "head".toList false P.headAttrs] ++ (allTokens P.head ++
    ([.endTag "head".toList] ++ ([.startTag "body".toList false P.bodyAttrs] ++ (toks ++ ([.endTag "body".toList] ++
    [.endTag "html".toList]))))))

/-- the start tag of the root element -/
theorem html_read (env : Env) {s : St} (h : Unrooted s) (hm : s.mode = .initial ∨ s.mode = .beforeHtml) (as : Attrs) :
    ∃ s2, Reads env s [.startTag "html".toList false as] s2 ∧ Inside s2 ["html".toList] ∧ s2.opened = [s.doc.nextId] ∧
      s2.mode = .beforeHead ∧ Added s.doc s2.doc 0 (elementData "html".toList htmlNs as) := by
  have go : ∀ s1 : St, Unrooted s1 → ∃ d1, byMode env .beforeHtml (.startTag "html".toList false as) s1 = some (.done, rooted s1 d1) ∧
      Inside (rooted s1 d1) ["html".toList] ∧ Added s1.doc d1 0 (elementData "html".toList htmlNs as) := by
    intro s1 h1
    obtain ⟨d1, e1, hA⟩ := insertRoot_new h1.arena h1.root as
    refine ⟨d1, ?_, h1.ready hA, hA⟩
    rw [show byMode env .beforeHtml (.startTag "html".toList false as) = _ from beforeHtml_start as]
    apply fin_some
    rw [bind_some e1]
    show some ((), ({ s1 with doc := d1, opened := s1.doc.nextId :: s1.opened, mode := .beforeHead } : St)) = _
    rw [h1.opened]
    rfl
  rcases hm with hm | hm
  · have h1 : Unrooted { hush s with quirks := true, mode := .beforeHtml } :=
      ⟨h.arena, h.root, h.foster, h.lf, h.queue, h.context, h.tmodes, h.fin, h.opened, h.active, h.form⟩
    obtain ⟨d1, e1, hR, hA⟩ := go _ h1
    refine ⟨_, read_again h.isPlain (s1 := { hush s with quirks := true, mode := .beforeHtml }) ?_ h1.lf h1.fin e1 ⟨h1.queue, rfl⟩, hR, rfl, rfl, hA⟩
    rw [hm]
    rfl
  · have h1 : Unrooted (hush s) :=
      ⟨h.arena, h.root, h.foster, h.lf, h.queue, h.context, h.tmodes, h.fin, h.opened, h.active, h.form⟩
    obtain ⟨d1, e1, hR, hA⟩ := go _ h1
    refine ⟨_, read_done (s' := rooted (hush s) d1) h.isPlain ?_ ⟨h.queue, rfl⟩, hR, rfl, rfl, hA⟩
    rw [hm]
    exact e1

/-- a page from its root element on, if these tokens are read as its body -/
theorem root_read (env : Env) {s : St} (h : Unrooted s) (hm : s.mode = .initial ∨ s.mode = .beforeHtml) (P : Page)
    (hP1 : AllFit .head (names ["head", "html"]) P.head) {toks : List Token} (hB : BodyReads env toks P.body) :
    ∃ s', Reads env s (P.around toks) s' ∧ Plain s' ∧ s'.mode = .afterAfterBody ∧ Grow s.doc s'.doc 0 [s.doc.nextId] ∧
      IsTree s'.doc s.doc.nextId P.root := by
  obtain ⟨s1, r1, R1, o1, m1, hA⟩ := html_read env h hm P.attrs
  obtain ⟨s2, new, r2, p2, m2, g2, t2⟩ := rest_read env R1 o1 m1 P hP1 hB
  exact ⟨s2, r1.trans r2, p2, m2, hA.under (h.arena.lt h.root) g2, TreeFrom.is (treeFrom_elem hA g2 t2)⟩

theorem root_around (P : Page) : P.root.tokens = P.around (allTokens P.body) := by
  have hv0 : "html".toList ∉ voids := by decide +kernel
  have hv1 : "head".toList ∉ voids := by decide +kernel
  have hv2 : "body".toList ∉ voids := by decide +kernel
  unfold Page.root Page.around
  simp only [allTokens, Tree.tokens, hv0, hv1, hv2, if_false, List.append_nil, List.append_assoc, List.cons_append, List.nil_append]

theorem body_read (env : Env) {P : Page} (hP : P.fits) : BodyReads env (allTokens P.body) P.body :=
  fun _ hR hA _ hN => trees_read env P.body hP.2 trivial hR hA fun _ _ _ => hN

theorem unrooted_document : Unrooted St.document :=
  ⟨arena_new, rfl, rfl, rfl, rfl, rfl, rfl, rfl, rfl, rfl, rfl⟩

theorem page_ends (env : Env) (P : Page) {s' : St} (r : Reads env St.document P.tokens s') (p : Plain s')
    (m : s'.mode = .afterAfterBody) : Ends env (atStart P.tokens) s'.doc := by
  obtain ⟨k, hk⟩ := r.1 []
  rw [List.append_nil] at hk
  exact ⟨k + 1, _, by rw [show atStart P.tokens = ⟨St.document, none, P.tokens⟩ from rfl, run_more env hk, eof_read env p m], rfl, rfl⟩

theorem page_read (env : Env) (P : Page) (hP : P.fits) :
    ∃ s', Reads env St.document P.tokens s' ∧ Plain s' ∧ s'.mode = .afterAfterBody ∧ IsPage s'.doc P := by
  have hU := unrooted_document
  cases hd : P.doctype with
  | none =>
    obtain ⟨s', r, p, m, g, t⟩ := root_read env hU (Or.inl rfl) P hP.1 (body_read env hP)
    refine ⟨s', ?_, p, m, ?_⟩
    · unfold Page.tokens; rw [hd, root_around]; exact r
    · unfold IsPage; rw [hd]
      refine ⟨g.data (by decide) |>.trans rfl, ?_⟩
      have hc : children s'.doc 0 = [St.document.doc.nextId] := by
        rw [g.children hU.root]; rfl
      exact ⟨_, _, hc, t, rfl⟩
  | some x =>
    obtain ⟨n, q, pub, sys⟩ := x
    have hU' : Unrooted (hush St.document) := unrooted_document
    obtain ⟨d1, e1, hA⟩ := insertDoctype_new hU'.arena hU'.root n pub sys
    obtain ⟨s1, hs1⟩ : ∃ s1, s1 = ({ hush St.document with doc := d1, quirks := if env.srcdoc then false else env.quirks n pub sys q, mode := .beforeHtml } : St) :=
      ⟨_, rfl⟩
    have r1 : Reads env St.document [.doctype n q pub sys] s1 := by
      refine read_done hU.isPlain ?_ (by rw [hs1]; exact ⟨rfl, rfl⟩)
      show fin _ _ = _
      apply fin_some
      rw [bind_some e1, hs1]
      rfl
    have g1 := hA.grow
    have U1 : Unrooted s1 := by
      rw [hs1]
      exact ⟨hA.arena, (g1.live (by decide)).2 hU.root, rfl, rfl, rfl, rfl, rfl, rfl, rfl, rfl, rfl⟩
    have d1eq : s1.doc = d1 := by rw [hs1]
    obtain ⟨s', r, p, m, g, t⟩ := root_read env U1 (Or.inr (by rw [hs1])) P hP.1 (body_read env hP)
    refine ⟨s', ?_, p, m, ?_⟩
    · unfold Page.tokens; rw [hd, root_around]; exact r1.trans r
    · unfold IsPage; rw [hd]
      rw [d1eq] at g t
      refine ⟨(g.data (by rw [hA.next]; omega)).trans ((g1.data (by decide)).trans rfl), ?_⟩
      have hn : nodeAt s'.doc (hush St.document).doc.nextId = _ := (g.old _ (by rw [hA.next]; omega) (by decide)).trans hA.new
      refine ⟨(hush St.document).doc.nextId, d1.nextId, ?_, ?_, ?_, t⟩
      · rw [g.children ((g1.live (by decide)).2 hU.root), g1.children hU.root]; rfl
      · unfold dataAt; rw [hn]; rfl
      · unfold children; rw [hn]; rfl

/-- **C106**: a page written out as tokens, start tag, content and end tag of every element, is read back as that page: its elements with
their names and attributes, its texts and its comments, each where it was and in the same order. -/
theorem C106_page (env : Env) (P : Page) (hP : P.fits) :
    (∃ d, Ends env (atStart P.tokens) d) ∧ ∀ d, Ends env (atStart P.tokens) d → IsPage d P := by
  obtain ⟨s', r, p, m, h2⟩ := page_read env P hP
  have h1 := page_ends env P r p m
  refine ⟨⟨s'.doc, h1⟩, fun d' h' => ?_⟩
  obtain ⟨k, l, e1, e2, e3⟩ := h1
  obtain ⟨j, b, g1, g2, rfl⟩ := h'
  rw [← e3] at h2
  rw [run_unique g1 g2 e1 e2]
  exact h2

/-! A page with a bit of everything. -/

def demoPage : Page where
  doctype := some (some "html".toList, false, none, none)
  attrs := [("lang".toList, "en".toList)]
  headAttrs := []
  head := [.elem "title".toList [] [.text "A & B".toList], .text "\n".toList, .elem "meta".toList [("charset".toList, "utf-8".toList)] []]
  bodyAttrs := [("class".toList, "x".toList)]
  body := [
    .elem "form".toList [] [.elem "p".toList [("id".toList, "1".toList)] [.text "one ".toList, .elem "b".toList [] [.text "two".toList],
      .comment "three".toList, .elem "br".toList [] [], .elem "a".toList [] [.elem "img".toList [] []]]],
    .elem "ul".toList [] [.elem "li".toList [] [.elem "h1".toList [] []], .elem "li".toList [] [.elem "object".toList [] [.text "x".toList]]],
    .elem "table".toList [] [.elem "caption".toList [] [.text "c".toList], .elem "colgroup".toList [] [.elem "col".toList [] []],
      .elem "tbody".toList [] [.elem "tr".toList [] [.elem "td".toList [] [.elem "i".toList [] [], .text "cell".toList]]]],
    .elem "script".toList [] [.text "let x = 1 < 2;".toList]]

theorem demoPage_fits : demoPage.fits := by
  have text : ∀ {above v}, v ≠ [] → Char.ofNat 0 ∉ v → Fits .flow above (.text v) := fun h1 h2 => ⟨h1, h2⟩
  refine ⟨⟨⟨by decide +kernel, .inr ⟨by decide +kernel, .inr ⟨_, by decide, rfl⟩⟩⟩, ⟨⟨by decide, by unfold Blank; decide +kernel⟩,
    ⟨⟨by decide +kernel, .inl ⟨by decide +kernel, rfl⟩⟩, trivial, by simp⟩, by decide⟩, by decide⟩, ?_⟩
  refine ⟨.inr (.inr (.inr ⟨by decide +kernel, by decide +kernel, ⟨by decide +kernel, by decide +kernel, by decide +kernel, by decide +kernel,
    by decide +kernel, by decide +kernel⟩, ?_⟩)), ⟨.inr (.inr (.inr ⟨by decide +kernel, by decide +kernel, ⟨by decide +kernel, by decide +kernel,
    by decide +kernel, by decide +kernel, by decide +kernel, by decide +kernel⟩, ?_⟩)), ⟨.inr (.inr (.inl ⟨rfl, by decide +kernel, ?_⟩)),
    ⟨.inr (.inl ⟨by decide +kernel, .inr ⟨_, by decide, rfl⟩, by decide +kernel⟩), trivial, by simp⟩, by decide⟩, by decide⟩, by decide⟩
  · refine ⟨.inr (.inr (.inr ⟨by decide +kernel, by decide +kernel, ⟨by decide +kernel, by decide +kernel, by decide +kernel,
      by decide +kernel, by decide +kernel, by decide +kernel⟩, ?_⟩)), trivial, by simp⟩
    refine ⟨text (by decide) (by decide +kernel), ⟨.inr (.inr (.inr ⟨by decide +kernel, by decide +kernel, ⟨by decide +kernel, by decide +kernel,
      by decide +kernel, by decide +kernel, by decide +kernel, by decide +kernel⟩, ⟨text (by decide) (by decide +kernel), trivial, by simp⟩⟩)),
      ⟨trivial, ⟨.inl ⟨by decide +kernel, by decide +kernel, rfl, by decide +kernel⟩, ⟨.inr (.inr (.inr ⟨by decide +kernel, by decide +kernel,
      ⟨by decide +kernel, by decide +kernel, by decide +kernel, by decide +kernel, by decide +kernel, by decide +kernel⟩,
      ⟨.inl ⟨by decide +kernel, by decide +kernel, rfl, by decide +kernel⟩, trivial, by simp⟩⟩)), trivial, by simp⟩, by decide⟩, by decide⟩,
      by decide⟩, by decide⟩
  · refine ⟨.inr (.inr (.inr ⟨by decide +kernel, by decide +kernel, ⟨by decide +kernel, by decide +kernel, by decide +kernel,
      fun _ => ⟨_, rfl, by decide +kernel⟩, by decide +kernel, by decide +kernel⟩, ⟨.inr (.inr (.inr ⟨by decide +kernel, by decide +kernel,
      ⟨by decide +kernel, by decide +kernel, by decide +kernel, by decide +kernel, by decide +kernel, by decide +kernel⟩, trivial⟩)),
      trivial, by simp⟩⟩)), ⟨.inr (.inr (.inr ⟨by decide +kernel, by decide +kernel, ⟨by decide +kernel, by decide +kernel, by decide +kernel,
      fun _ => ⟨_, rfl, by decide +kernel⟩, by decide +kernel, by decide +kernel⟩, ⟨.inr (.inr (.inr ⟨by decide +kernel, by decide +kernel,
      ⟨by decide +kernel, by decide +kernel, by decide +kernel, by decide +kernel, by decide +kernel, by decide +kernel⟩,
      ⟨text (by decide) (by decide +kernel), trivial, by simp⟩⟩)), trivial, by simp⟩⟩)), trivial, by simp⟩, by decide⟩
  · refine ⟨.inl ⟨rfl, ⟨text (by decide) (by decide +kernel), trivial, by simp⟩⟩, ⟨.inr (.inl ⟨rfl, ⟨⟨rfl, rfl⟩, trivial, by simp⟩⟩),
      ⟨.inr (.inr ⟨by decide +kernel, ⟨⟨rfl, ⟨⟨by decide +kernel, ⟨.inr (.inr (.inr ⟨by decide +kernel, by decide +kernel, ⟨by decide +kernel,
      by decide +kernel, by decide +kernel, by decide +kernel, by decide +kernel, by decide +kernel⟩, trivial⟩)),
      ⟨text (by decide) (by decide +kernel), trivial, by simp⟩, by decide⟩⟩, trivial, by simp⟩⟩, trivial, by simp⟩⟩), trivial, by simp⟩,
      by decide⟩, by decide⟩

example (env : Env) : ∃ d, Ends env (atStart demoPage.tokens) d ∧ IsPage d demoPage := by
  obtain ⟨⟨d, h1⟩, h2⟩ := C106_page env demoPage demoPage_fits
  exact ⟨d, h1, h2 d h1⟩

end Verif.TreeBuild
