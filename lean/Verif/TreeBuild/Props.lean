import Verif.TreeBuild.Lemmas11
import Verif.TreeBuild.Spec
import Verif.Dom.Props
import Verif.HtmlTok.Props

/-!
# C103–C105: parsing ends, and leaves a proper tree
-/
namespace Verif.TreeBuild
open Verif Verif.Dom Relation

/-! ## The start -/

theorem inv_document : Inv St.document where
  good := by
    refine ⟨⟨⟨fine_new, fun x h => by cases h⟩, (fun x h => by cases h), (fun x h => by cases h), (fun x h => by cases h),
      (fun x h => by cases h), fun m h => by cases h⟩, fun _ => ⟨(fun x h => by cases h), (fun x h => by cases h), fun y h => by cases h⟩⟩
  held := .inl (by decide)
  shape := fun _ => .inr ⟨(fun c h => by cases h), .inl ⟨by decide, ⟨(fun x h => by cases h), by decide, fun y h => by cases h⟩⟩⟩

theorem linv_start {s : St} (h : Inv s) (hq : s.queue = []) (hf : s.finished = false) {toks : List Token} (ht : .eof ∉ toks) :
    LInv ⟨s, none, toks⟩ where
  inv := h
  input := fun t hm he => ht (he ▸ hm)
  queue := fun t hm => by
    have : t ∈ s.queue := hm
    rw [hq] at this; cases this
  last := fun t f h => by cases h
  foreign := fun t h => by cases h
  done := fun h => by
    have : s.finished = true := h
    rw [hf] at this; cases this

theorem fine_sound {d : Doc} (h : Sound d) : Fine d where
  reach := h.reach
  root := h.root
  up := h.up
  inner := fun i c hc => by
    unfold contents at hc
    rw [elem_data] at hc
    cases hd : dataAt d i with
    | none => rw [hd] at hc; cases hc
    | some x =>
      rw [hd] at hc
      cases x with
      | element e => exact h.inner i e c hd hc
      | _ => all_goals cases hc

theorem tree_fine {d : Doc} (h : Fine d) : ProperTree d where
  acyclic := noCycle_reach h.reach
  agree := (C36_partial h.reach).1
  listed := (C36_partial h.reach).2.1
  named := h.up

theorem keeps_ext {d d' : Doc} (h : Ext d d') : Keeps d d' := by
  refine ⟨fun i hi => (h i hi).1, fun i e he => ?_⟩
  have hl : live d i := by
    unfold live
    unfold dataAt at he
    cases hn : nodeAt d i with
    | none => rw [hn] at he; cases he
    | some y => rfl
  have hel : elem d i = some e := by rw [elem_data, he]; rfl
  obtain ⟨_, h2, h3⟩ := h i hl
  unfold tag at h2
  unfold ns at h3
  rw [hel] at h2 h3
  cases hel' : elem d' i with
  | none => rw [hel'] at h3; cases h3
  | some e' =>
    rw [hel'] at h2 h3
    refine ⟨e', ?_, h2, Option.some.inj h3⟩
    rw [elem_data] at hel'
    cases hd : dataAt d' i with
    | none => rw [hd] at hel'; cases hel'
    | some x =>
      rw [hd] at hel'
      cases x with
      | element y => rw [show y = e' from Option.some.inj hel']
      | _ => all_goals cases hel'

/-! ## Runs -/

theorem run_finished (env : Env) {l : Loop} (h : l.st.finished = true) : ∀ k, Loop.run env l k = some l
  | 0 => rfl
  | k + 1 => by
    have : Loop.step env l = some l := by unfold Loop.step; rw [h]; rfl
    unfold Loop.run; rw [this]; exact run_finished env h k

theorem run_add (env : Env) : ∀ (k j : Nat) (l : Loop), Loop.run env l (k + j) = (Loop.run env l k).bind fun l' => Loop.run env l' j
  | 0, j, l => by rw [Nat.zero_add]; rfl
  | k + 1, j, l => by
    rw [Nat.add_right_comm]
    show (Loop.step env l).bind _ = ((Loop.step env l).bind _).bind _
    cases Loop.step env l with
    | none => rfl
    | some l1 => exact run_add env k j l1

theorem run_unique {env : Env} {l a b : Loop} {k j : Nat} (h1 : Loop.run env l k = some a) (ha : a.st.finished = true)
    (h2 : Loop.run env l j = some b) (hb : b.st.finished = true) : a = b := by
  have e1 := run_add env k j l
  have e2 := run_add env j k l
  rw [h1] at e1
  rw [h2, Nat.add_comm, e1] at e2
  have e3 : Loop.run env a j = Loop.run env b k := e2
  rw [run_finished env ha, run_finished env hb] at e3
  exact Option.some.inj e3

/-- from a good start: no panic, a proper tree at every moment, an end, and only one -/
theorem parse_ok (env : Env) {l : Loop} (h : LInv l) :
    (∀ k, ∃ l', Loop.run env l k = some l' ∧ ProperTree l'.st.doc ∧ Keeps l.st.doc l'.st.doc) ∧
    ∃ k l', Loop.run env l k = some l' ∧ l'.st.finished = true ∧ Spent l' ∧ ∀ d, Ends env l d → d = l'.st.doc := by
  constructor
  · intro k
    obtain ⟨l', h1, h2, h3, _⟩ := run_safe env k h
    exact ⟨l', h1, tree_fine h2.inv.good.ok.base.fine, keeps_ext h3⟩
  · obtain ⟨k, l', h1, h2⟩ := run_ends env l h
    obtain ⟨l2, e1, e2, _⟩ := run_safe env k h
    rw [h1] at e1; cases e1
    obtain ⟨f1, f2, f3⟩ := e2.done h2
    refine ⟨k, l', h1, h2, ⟨f3, f2, f1⟩, ?_⟩
    rintro d ⟨j, b, g1, g2, rfl⟩
    rw [run_unique g1 g2 h1 h2]

/-- **C103**: whatever tokens come, parsing a document never panics, comes to its end, has then read everything, and leaves one
document. -/
theorem C103_ends (env : Env) (toks : List Token) (h : .eof ∉ toks) :
    (∀ k, Loop.run env (atStart toks) k ≠ none) ∧
    ∃ k l, Loop.run env (atStart toks) k = some l ∧ l.st.finished = true ∧ Spent l ∧ ∀ d, Ends env (atStart toks) d → d = l.st.doc := by
  obtain ⟨h1, h2⟩ := parse_ok env (linv_start inv_document rfl rfl h)
  refine ⟨fun k hk => ?_, h2⟩
  obtain ⟨l', e, _⟩ := h1 k
  unfold atStart at hk
  rw [hk] at e; cases e

/-- **C103**, from the text on: whatever the text, and whatever the parser asks the tokenizer for, the tokenizer hands out a list of
tokens and parsing those ends. -/
theorem C103_text (tenv : HtmlTok.Env) (hT : CharRef.TableOk tenv.names) (env : Env) (p : HtmlTok.Parser) (input : Str)
    (c : HtmlTok.Content) : ∃ toks d, HtmlTok.Yields tenv p input c (toks ++ [.eof]) ∧ Ends env (atStart toks) d := by
  obtain ⟨toks, h1, h2, _⟩ := HtmlTok.C89_ends tenv hT p input c
  obtain ⟨_, k, l, e1, e2, _⟩ := C103_ends env toks h2
  exact ⟨toks, l.st.doc, h1, k, l, e1, e2, rfl⟩

/-- **C104**: at every moment of parsing a document, the document is a proper tree, and from its root every node comes once. -/
theorem C104_tree (env : Env) (toks : List Token) (h : .eof ∉ toks) (k : Nat) {l : Loop} (hl : Loop.run env (atStart toks) k = some l) :
    ProperTree l.st.doc ∧ ∃ nodes, Walk l.st.doc 0 nodes ∧ nodes.Nodup := by
  obtain ⟨l', e1, e2, _⟩ := run_safe env k (linv_start inv_document rfl rfl h)
  unfold atStart at hl
  rw [hl] at e1; cases e1
  have hf := e2.inv.good.ok.base.fine
  obtain ⟨nodes, hw, _⟩ := walk_total (noCycle_reach hf.reach) 0
  exact ⟨tree_fine hf, nodes, hw, C37_once_partial hf.reach 0 hw⟩

/-! ## Fragments -/

theorem modeFor_last {s : St} (h : ∀ m ∈ s.templateModes, late m) (hn : s.head = none) {n : Nat} {m : Mode}
    (hm : modeFor s true n [] = some m) : late m ∨ (m = .beforeHead ∧ is (tag s.doc n) "html" = true) := by
  have htm : late (s.templateModes.head?.getD .inTemplate) := by
    cases ht : s.templateModes with
    | nil => decide
    | cons x r => exact h x (by rw [ht]; simp)
  have ite : ∀ {c : Bool} {a : Mode} {b : Option Mode}, (c = true → late a) →
      (∀ m, b = some m → late m ∨ (m = .beforeHead ∧ is (tag s.doc n) "html" = true)) →
      ∀ m, (if c then some a else b) = some m → late m ∨ (m = .beforeHead ∧ is (tag s.doc n) "html" = true) := by
    intro c a b ha hb m h
    split at h
    · next hc => cases h; exact .inl (ha hc)
    · exact hb m h
  refine (?_ : ∀ m, modeFor s true n [] = some m → late m ∨ (m = .beforeHead ∧ is (tag s.doc n) "html" = true)) m hm
  unfold modeFor
  refine ite (fun _ => ?_) (ite (fun _ => by decide) (ite (fun _ => by decide) (ite (fun _ => by decide) (ite (fun _ => by decide)
    (ite (fun _ => by decide) (ite (fun _ => by decide) (ite (fun _ => htm) (ite (fun h => ?_) (ite (fun _ => by decide)
    (ite (fun _ => by decide) ?_))))))))))
  · rw [if_pos rfl]; decide
  · rw [Bool.and_eq_true] at h; cases h.2
  · intro m h
    split at h
    · next hc =>
      rw [hn] at h
      cases h
      exact .inr ⟨rfl, hc⟩
    · cases h

theorem whenM_pos {c : St → Bool} {m : M Unit} {s : St} (h : c s = true) : whenM c m s = m s := by
  unfold whenM ifM; rw [if_pos h]

theorem whenM_neg {c : St → Bool} {m : M Unit} {s : St} (h : c s = false) : whenM c m s = some ((), s) := by
  unfold whenM ifM; rw [if_neg (by rw [h]; decide)]; rfl

theorem fragment_ok {d : Doc} (hd : Sound d) (quirks : Bool) {c : Nat} (hc : live d c)
    (hh : is (tag d c) "html" = true → isHtml d c = true) :
    ∃ s, St.fragment d quirks c = some s ∧ Inv s ∧ s.queue = [] ∧ s.finished = false ∧ Ext d s.doc := by
  have hF := fine_sound hd
  obtain ⟨d1, n, h1, hM, h2, h3, h4⟩ := made_element hF "html".toList htmlNs []
  let s0 : St := { St.new d quirks with context := some c }
  obtain ⟨d2, h5, h6, h7⟩ := insertAt_ok (s := { s0 with doc := d1 }) hM.fine (pl := .lastChild 0) hM.here hM.loose (hM.ext 0 hF.root).1
  obtain ⟨h8, h9, h10⟩ := h7 n hM.here
  have hext : Ext d d2 := hM.ext.trans h7
  obtain ⟨hc1, hc2, hc3⟩ := hext c hc
  have htag : tag d2 n = "html".toList := h9.trans h2
  have hns : ns d2 n = some htmlNs := h10.trans h3
  let tm : List Mode := if is (tag d2 c) "template" then [.inTemplate] else []
  let s1 : St := { s0 with doc := d2, opened := [n], templateModes := tm }
  have htm : ∀ m ∈ tm, late m := by
    intro m hm
    simp only [tm] at hm
    split at hm
    · simp only [List.mem_singleton] at hm; rw [hm]; decide
    · cases hm
  have hbare : Bare d2 [n] := by
    refine ⟨?_, ?_, ?_⟩
    · intro x hx _
      rw [List.mem_singleton.1 hx, htag]; decide
    · intro x hx hb
      rw [List.mem_singleton.1 hx, htag] at hb
      exact absurd hb (by decide)
    · intro y hy
      have hy' := List.mem_of_getLast? hy
      rw [List.mem_singleton.1 (List.mem_filter.1 hy').1, htag]; decide
  have hg : ∀ (m : Mode) (f : Option Nat), (∀ x, f = some x → x = c ∧ is (tag d2 c) "form" = true) →
      Good { s1 with mode := m, form := f } := by
    intro m f hf
    refine ⟨⟨⟨h6, ?_⟩, (fun x h => by cases h), (fun x h => by cases h), ?_, ?_, htm⟩, fun _ => hbare⟩
    · intro x hx; rw [List.mem_singleton.1 hx]; exact h8
    · intro x hx
      obtain ⟨rfl, hx⟩ := hf x hx
      exact ⟨hc1, is_iff.1 hx⟩
    · intro x hx
      obtain rfl : c = x := Option.some.inj hx
      exact hc1
  let f : Option Nat := if is (tag d2 c) "form" then some c else none
  let m : Mode := resetMode s1 [n]
  have hm : plain m := resetMode_plain (s := s1) htm [n]
  refine ⟨{ s1 with mode := m, form := f }, ?_, ⟨hg m f ?_, .inl hm, fun _ => ?_⟩, rfl, rfl, hext⟩
  · unfold St.fragment
    change Option.map _ (Bind.bind (m := M) _ _ s0) = _
    rw [bind_some (dom_new (s := s0) h1), bind_some h5]
    rw [show ∀ (k : Unit → M Unit) (s : St), ((push n) >>= k) s = k () { s with opened := n :: s.opened } from fun _ _ => rfl]
    rw [bind_some (a := ()) (s' := s1) ?_]
    · rw [bind_some (a := ()) (s' := { s1 with mode := m }) rfl]
      by_cases hf : is (tag d2 c) "form" = true
      · rw [whenM_pos hf]
        simp only [f, if_pos hf]; rfl
      · rw [whenM_neg (Bool.eq_false_iff.2 hf)]
        simp only [f, if_neg hf]; rfl
    · by_cases hf : is (tag d2 c) "template" = true
      · rw [whenM_pos hf]
        simp only [s1, tm, if_pos hf]; rfl
      · rw [whenM_neg (Bool.eq_false_iff.2 hf)]
        simp only [s1, tm, if_neg hf]; rfl
  · intro x hx
    by_cases hf : is (tag d2 c) "form" = true
    · simp only [f, if_pos hf, Option.some.injEq] at hx
      exact ⟨hx.symm, hf⟩
    · simp only [f, if_neg hf] at hx; cases hx
  · by_cases hl : late m
    · exact .inl (.inl hl)
    · have hbh : m = .beforeHead ∧ is (tag d2 c) "html" = true := by
        have hr : m = (modeFor s1 true c []).getD .inBody := rfl
        cases hx : modeFor s1 true c [] with
        | none => exact absurd (show late m by rw [hr, hx]; decide) hl
        | some k =>
          rcases modeFor_last (s := s1) htm rfl hx with h' | h'
          · exact absurd (show late m by rw [hr, hx]; exact h') hl
          · rw [hr, hx]; exact h'
      refine .inr ⟨?_, .inl ⟨⟨hm, hl⟩, ⟨?_, ?_, ?_⟩⟩⟩
      · intro x hx
        obtain rfl : c = x := Option.some.inj hx
        have := hbh.2
        rw [hc2] at this
        have := hh this
        unfold isHtml at this ⊢
        show decide (ns d2 c = _) = true
        rw [hc3]; exact this
      · intro x hx; rw [List.mem_singleton.1 hx]; exact isHtml_ns hns
      · show need m ≤ 1
        rw [hbh.1]; decide
      · intro y hy
        have hy' : [n].getLast? = some y := hy
        simp only [List.getLast?_singleton, Option.some.injEq] at hy'
        rw [← hy']
        show is (tag d2 n) "html" = true
        rw [htag]; decide

theorem html_context {d : Doc} {c : Nat}
    (hh : ∀ e, dataAt d c = some (.element e) → e.name = "html".toList → e.ns = "http://www.w3.org/1999/xhtml".toList) :
    is (tag d c) "html" = true → isHtml d c = true := by
  intro h
  have h' := is_iff.1 h
  unfold tag at h'
  unfold isHtml ns
  cases he : elem d c with
  | none => rw [he] at h'; exact absurd h' (by decide)
  | some e =>
    rw [he] at h'
    have hd : dataAt d c = some (.element e) := by
      rw [elem_data] at he
      cases hd : dataAt d c with
      | none => rw [hd] at he; cases he
      | some x =>
        rw [hd] at he
        cases x with
        | element y => rw [show y = e from Option.some.inj he]
        | _ => all_goals cases he
    have := hh e hd h'
    show decide (some e.ns = some htmlNs) = true
    rw [this]; decide

/-- **C103** for fragments (partial: an `html` element that is not an HTML one, such as one in an `svg`, is left out as the context):
whatever the tokens, parsing them in the context of a node of any sound document never panics and comes to its end. -/
theorem C103_fragment_partial (env : Env) {d : Doc} (hd : Sound d) (quirks : Bool) {c : Nat} (hc : live d c)
    (hh : ∀ e, dataAt d c = some (.element e) → e.name = "html".toList → e.ns = "http://www.w3.org/1999/xhtml".toList)
    (toks : List Token) (h : .eof ∉ toks) :
    ∃ s, St.fragment d quirks c = some s ∧ (∀ k, Loop.run env ⟨s, none, toks⟩ k ≠ none) ∧
      ∃ k l, Loop.run env ⟨s, none, toks⟩ k = some l ∧ l.st.finished = true ∧ Spent l := by
  obtain ⟨s, h1, h2, h3, h4, _⟩ := fragment_ok hd quirks hc (html_context hh)
  obtain ⟨e1, k, l, e2, e3, e4, _⟩ := parse_ok env (linv_start h2 h3 h4 h)
  refine ⟨s, h1, fun k hk => ?_, k, l, e2, e3, e4⟩
  obtain ⟨l', e, _⟩ := e1 k
  rw [hk] at e; cases e

/-- **C104** for fragments (partial, as `C103_fragment_partial`): at every moment the document is a proper tree that still has every
node it had before, elements with their names. -/
theorem C104_fragment_partial (env : Env) {d : Doc} (hd : Sound d) (quirks : Bool) {c : Nat} (hc : live d c)
    (hh : ∀ e, dataAt d c = some (.element e) → e.name = "html".toList → e.ns = "http://www.w3.org/1999/xhtml".toList)
    (toks : List Token) (h : .eof ∉ toks) {s : St} (hs : St.fragment d quirks c = some s) {k : Nat} {l : Loop}
    (hl : Loop.run env ⟨s, none, toks⟩ k = some l) : ProperTree l.st.doc ∧ Keeps d l.st.doc := by
  obtain ⟨s', h1, h2, h3, h4, h5⟩ := fragment_ok hd quirks hc (html_context hh)
  rw [hs] at h1; cases h1
  obtain ⟨l', e1, e2, e3, _⟩ := run_safe env k (linv_start h2 h3 h4 h)
  rw [hl] at e1; cases e1
  exact ⟨tree_fine e2.inv.good.ok.base.fine, keeps_ext (h5.trans e3)⟩

/-! ## Splitting text -/

theorem splitLoop_apart (g : Char → Group) : ∀ (v : Str) (last : Option Group) (found : Str), (∀ c ∈ found, some (g c) = last) →
    (∀ p q, [p, q] <:+: splitLoop g last found v → ∀ a ∈ p, ∀ b ∈ q, g a ≠ g b) ∧
    ∀ q ps, splitLoop g last found v = q :: ps → ∃ c, (found ++ v).head? = some c ∧ c ∈ q
  | [], last, found, hf => by
    unfold splitLoop
    split
    · refine ⟨fun p q h => ?_, fun q ps h => by cases h⟩
      have := h.length_le
      simp at this
    · refine ⟨fun p q h => ?_, fun q ps h => ?_⟩
      · have := h.length_le
        simp at this
      · cases h
        cases found with
        | nil => exact absurd rfl (by assumption)
        | cons c r => exact ⟨c, rfl, by simp⟩
  | x :: r, last, found, hf => by
    unfold splitLoop
    split
    · next hx =>
      obtain ⟨h1, h2⟩ := splitLoop_apart g r (some (g x)) [x] (by intro c hc; rw [List.mem_singleton.1 hc])
      have hsame := splitLoop_same g r (some (g x)) [x] (by intro c hc; rw [List.mem_singleton.1 hc])
      refine ⟨fun p q h => ?_, fun q ps h => ?_⟩
      · rcases List.infix_cons_iff.1 h with h | h
        · obtain ⟨t, ht⟩ := h
          simp only [List.cons_append, List.nil_append, List.cons.injEq] at ht
          obtain ⟨rfl, ht⟩ := ht
          obtain ⟨c, hc1, hc2⟩ := h2 q t ht.symm
          simp only [List.singleton_append, List.head?_cons, Option.some.injEq] at hc1
          subst hc1
          intro a ha b hb he
          have hb' := hsame q (by rw [← ht]; simp) b hb x hc2
          exact hx.1 (by rw [← hf a ha, he, hb'])
        · exact h1 p q h
      · cases h
        cases hfd : found with
        | nil => exact absurd hfd hx.2
        | cons c r => exact ⟨c, rfl, by simp⟩
    · next hx =>
      have hf' : ∀ c ∈ found ++ [x], some (g c) = some (g x) := by
        intro c hc
        rcases List.mem_append.1 hc with hc | hc
        · by_cases hl : last = some (g x)
          · rw [← hl]; exact hf c hc
          · exact absurd ⟨hl, List.ne_nil_of_mem hc⟩ hx
        · rw [List.mem_singleton.1 hc]
      obtain ⟨h1, h2⟩ := splitLoop_apart g r (some (g x)) (found ++ [x]) hf'
      refine ⟨h1, fun q ps h => ?_⟩
      obtain ⟨c, hc⟩ := h2 q ps h
      exact ⟨c, by simpa using hc⟩

theorem runs_split {α : Type} (k : Char → α) (g : Char → Group) (hk : ∀ a b, g a = g b ↔ k a = k b) (v : Str) :
    Runs k v (splitLoop g none [] v) where
  whole := splitLoop_flatten g v none []
  some := splitLoop_nonempty g v none []
  same := fun p hp a ha b hb => (hk a b).1 (splitLoop_same g v none [] (by simp) p hp a ha b hb)
  apart := fun p q h a ha b hb he => (splitLoop_apart g v none [] (by simp)).1 p q h a ha b hb ((hk a b).2 he)

theorem group_kind (a b : Char) : group a = group b ↔ kind a = kind b := by
  have hw : ∀ c, isWhite c = true ↔ (c = '\t' ∨ c = '\n' ∨ c = '\x0C' ∨ c = '\r' ∨ c = ' ') := by
    intro c
    unfold isWhite
    rw [decide_eq_true_eq]
    simp only [List.mem_cons, List.not_mem_nil, or_false]
    constructor
    · rintro (h | h | h | h | h) <;> simp [h]
    · rintro (h | h | h | h | h) <;> simp [h]
  have key : ∀ c, (group c = .zero ↔ kind c = .null) ∧ (group c = .white ↔ kind c = .white) ∧ (group c = .rest ↔ kind c = .rest) := by
    intro c
    unfold group kind nul
    by_cases h1 : c = Char.ofNat 0
    · rw [if_pos h1, if_pos h1]; decide
    · rw [if_neg h1, if_neg h1]
      by_cases h2 : isWhite c = true
      · rw [if_pos h2, if_pos ((hw c).1 h2)]; decide
      · rw [if_neg h2, if_neg (fun h => h2 ((hw c).2 h))]; decide
  obtain ⟨a1, a2, a3⟩ := key a
  obtain ⟨b1, b2, b3⟩ := key b
  cases ha : group a <;> cases hb : group b <;> rw [ha] at a1 a2 a3 <;> rw [hb] at b1 b2 b3 <;>
    cases hka : kind a <;> cases hkb : kind b <;> rw [hka] at a1 a2 a3 <;> rw [hkb] at b1 b2 b3 <;> simp_all

/-- **C105**: when text is cut up before it is processed, no character is lost, added or moved: the parts are the runs of white
space, of NUL characters, and of the rest; or, where only NUL matters, of NUL characters and of the rest. -/
theorem C105_split (v : Str) :
    (∃ ps, splitMixed v = ps.map .text ∧ Runs kind v ps) ∧
    ∃ ps, splitNull v = ps.map .text ∧ Runs (fun c => decide (c = Char.ofNat 0)) v ps := by
  refine ⟨⟨_, rfl, runs_split kind group group_kind v⟩, _, rfl, runs_split _ groupNull ?_ v⟩
  intro a b
  unfold groupNull nul
  by_cases h1 : a = Char.ofNat 0 <;> by_cases h2 : b = Char.ofNat 0 <;> simp [h1, h2]

/-! ## Examples -/

/-- an environment: no scripting, nothing adjusted -/
def demoEnv : Env := ⟨true, false, fun _ _ _ _ => false, id, id, id, id⟩

/-- `<p>x<table>y<b><tr>` and `</b></p>z`: foster parenting, formatting and missing tags -/
def demoToks : List Token :=
  [.startTag "p".toList false [], .text "x".toList, .startTag "table".toList false [], .text "y".toList,
   .startTag "b".toList false [], .startTag "tr".toList false [], .endTag "b".toList, .endTag "p".toList, .text "z".toList]

/-- C103, C104: a document for which a lot has to be mended; at the end `html` has a head and a body, and the body a `p` with
the rest in it -/
example : .eof ∉ demoToks ∧ ((Loop.run demoEnv (atStart demoToks) 60).map fun l =>
    (l.st.finished, (children l.st.doc 0).map (tag l.st.doc), (children l.st.doc 1).map (tag l.st.doc),
     (children l.st.doc 3).map (tag l.st.doc))) =
    some (true, ["html".toList], ["head".toList, "body".toList], ["p".toList]) := by decide +kernel

/-- C103, C104 for fragments: a document with a `div`, and that as the context -/
example : ∃ d c e, Sound d ∧ live d c ∧ dataAt d c = some (.element e) ∧ e.name = "div".toList := by
  obtain ⟨d1, n, h1, hM, h2, h3, _⟩ := made_element fine_new "div".toList htmlNs []
  have hf := hM.fine
  have hs : Sound d1 := ⟨hf.reach, hf.root, hf.up, fun i e c he hc => hf.inner i c (by unfold contents; rw [elem_data, he]; exact hc)⟩
  cases he : elem d1 n with
  | none => unfold ns at h3; rw [he] at h3; cases h3
  | some e =>
    refine ⟨d1, n, e, hs, hM.here, ?_, ?_⟩
    · rw [elem_data] at he
      cases hd : dataAt d1 n with
      | none => rw [hd] at he; cases he
      | some x =>
        rw [hd] at he
        cases x with
        | element y => rw [show y = e from Option.some.inj he]
        | _ => all_goals cases he
    · unfold tag at h2; rw [he] at h2; exact h2

/-- C105: `"a \x00b"` -/
example : splitMixed ['a', ' ', Char.ofNat 0, 'b'] = [.text ['a'], .text [' '], .text [Char.ofNat 0], .text ['b']] := by decide +kernel

end Verif.TreeBuild
