import Verif.Select.Hover
import Verif.Dom.Props

/-!
# Theorems C43, C45 and C46: selectors
-/
namespace Verif.Select
open Verif Verif.Map

/-! ## Reachable documents -/

theorem climb_more {d : Dom.Doc} : ∀ {f i : Nat} {l : List Nat}, Dom.climb d f i = some l →
    Dom.climb d (f + 1) i = some l := by
  intro f
  induction f with
  | zero => intro i l h; simp [Dom.climb] at h
  | succ f ih =>
    intro i l h
    unfold Dom.climb at h ⊢
    cases hp : Dom.parent d i with
    | none => rw [hp] at h; exact h
    | some p =>
      rw [hp] at h
      simp only [Option.map_eq_some_iff] at h ⊢
      obtain ⟨m, h1, h2⟩ := h
      exact ⟨m, ih h1, h2⟩

/-- What is assumed of a document below holds of every document built by attaching only unattached nodes. -/
theorem ofDoc_ok {d : Dom.Doc} (h : Dom.Reach Dom.Tidy d) : (View.ofDoc d).Ok := by
  obtain ⟨hup, hag⟩ := Dom.agree_reach h
  have hn := Dom.noCycle_up (Dom.noCycle_reach h) hup
  have hdead : ∀ p, ¬ Dom.live d p → Dom.children d p = [] := by
    intro p hp
    unfold Dom.children
    cases hx : Dom.nodeAt d p with
    | none => rfl
    | some n => exact absurd (by unfold Dom.live; rw [hx]; rfl) hp
  refine ⟨?_, ?_, ?_, ?_, ?_, ?_, ?_⟩
  · intro x
    show ancOf d x = (Dom.parent d x).elim [] fun p => p :: ancOf d p
    unfold ancOf
    cases hp : Dom.parent d x with
    | none => rfl
    | some p =>
      obtain ⟨l, hl⟩ := Dom.climb_total (Dom.arena_reach h) hn p
      simp only [Option.elim, hl, Option.getD_some]
      unfold Dom.climb at hl
      cases hq : Dom.parent d p with
      | none => rw [hq] at hl; simp at hl; exact hl.symm
      | some q =>
        rw [hq] at hl
        simp only [Option.map_eq_some_iff] at hl
        obtain ⟨m, h1, h2⟩ := hl
        simp only [climb_more h1, Option.getD_some]
        exact h2.symm
  · intro p c hc
    exact Dom.edge_parent hag hc
  · intro p c hc
    by_cases hl : Dom.live d p
    · exact .inl (hup.mem c p hc hl)
    · exact .inr (hdead p hl)
  · intro p
    by_cases hl : Dom.live d p
    · rw [List.nodup_iff_count_le_one]
      intro c
      show (Dom.children d p).count c ≤ 1
      rw [hag p c hl]
      split <;> omega
    · show (Dom.children d p).Nodup
      rw [hdead p hl]; exact List.nodup_nil
  · intro x
    show (((Dom.nodeAt d x).bind Dom.elemOf).map (·.name)).isSome = ((Dom.nodeAt d x).bind Dom.elemOf).isSome
    exact Option.isSome_map
  · intro x k hx
    have hx : ((Dom.nodeAt d x).bind Dom.elemOf).isSome = false := hx
    show Dom.attr d x k = none
    unfold Dom.attr
    cases he : (Dom.nodeAt d x).bind Dom.elemOf with
    | none => rfl
    | some e => rw [he] at hx; simp at hx
  · intro x k hx
    have hx : ((Dom.nodeAt d x).bind Dom.elemOf).isSome = false := hx
    show Dom.hasClass d x k = false
    unfold Dom.hasClass
    cases he : (Dom.nodeAt d x).bind Dom.elemOf with
    | none => rfl
    | some e => rw [he] at hx; simp at hx

/-! ## C43 -/

/-- C43, only true matches: for every document, element and selector of plain simple selectors in which every
compound left of a combinator names a tag, class, id or attribute (or another test only elements pass), and
left of `~` there is a single simple selector reached again only by going up: what the matcher accepts, CSS
accepts.  Missing: the other selectors, for which it fails (`C43_wrong_match_violated`). -/
theorem C43_sound_partial {v : View} (hv : v.Ok) {x : Nat} (hx : v.isElem x = true) (ps : Option Str)
    {sel : Complex} (hf : sel.Fine v) (hp : sel.Pinned) (hs : sel.SibTame)
    (h : matchParts v ps x sel.parts = true) : Matches v ps x sel :=
  sound_aux hv sel _ x (Nat.le_refl _) hf hp hs ((matchParts_iff hx).mp h).2

/-- C43, exactly the matches of CSS: if moreover left of a descendant combinator there are only single simple
selectors and descendant combinators, `+` is used only in documents without text nodes, and the element is
in the document.  Missing: the other selectors, for which it fails (`C43_missed_match_violated`). -/
theorem C43_exact_partial {v : View} (hv : v.Ok) {x : Nat} (hx : v.isElem x = true) (hr : Rooted v x)
    (ps : Option Str) {sel : Complex} (hf : sel.Fine v) (hp : sel.Pinned) (hs : sel.SibTame)
    (hd : sel.DescTame v) : matchParts v ps x sel.parts = true ↔ Matches v ps x sel := by
  refine ⟨C43_sound_partial hv hx ps hf hp hs, fun h => ?_⟩
  exact (matchParts_iff hx).mpr ⟨fun _ => hr x .refl hx,
    complete_aux hv sel x hf hp hs hd hr h _ (Nat.le_refl _)⟩

/-- C43, compounds: a single compound of plain simple selectors matches an element of the document exactly as
CSS says, for all plain simple selectors. -/
theorem C43_compound_partial {v : View} (hv : v.Ok) {x : Nat} (hx : v.isElem x = true)
    (hp : (v.parent x).isSome = true) (ps : Option Str) {c : List Simple} (hc : ∀ s ∈ c, Plain v s) :
    matchParts v ps x (c.map .simple) = true ↔ ∀ s ∈ c, Sat v ps x s := by
  rw [show c.map Part.simple = (Complex.compound c).parts from rfl, matchParts_iff hx]
  constructor
  · rintro ⟨-, -, h, -⟩ s hs
    exact (simple_exact hv hx (hc s hs)).mp (h s hs)
  · intro h
    exact ⟨fun _ => hp, hx, fun s hs => (simple_exact hv hx (hc s hs)).mpr (h s hs), rfl⟩

/-- C43, form controls: `:disabled` and `:enabled` are exact on elements that can be disabled, `:read-write` on
those that can be edited, `:checked` on check boxes and radio buttons; `:read-only` accepts only elements that
are.  Missing: other elements, for which they are wrong (`C43_form_violated`). -/
theorem C43_form_partial {v : View} {x : Nat} (hx : v.isElem x = true) (ps : Option Str) :
    ((∃ t ∈ formTags, v.tag x = some t) →
      (simpleB v ps x (.pseudo "disabled".toList) = true ↔ Sat v ps x (.pseudo "disabled".toList)) ∧
      (simpleB v ps x (.pseudo "enabled".toList) = true ↔ Sat v ps x (.pseudo "enabled".toList))) ∧
    ((∃ t ∈ editTags, v.tag x = some t) →
      (simpleB v ps x (.pseudo "read-write".toList) = true ↔ Sat v ps x (.pseudo "read-write".toList))) ∧
    (simpleB v ps x (.pseudo "read-only".toList) = true → Sat v ps x (.pseudo "read-only".toList)) ∧
    (IsCheckable v x →
      (simpleB v ps x (.pseudo "checked".toList) = true ↔ Sat v ps x (.pseudo "checked".toList))) := by
  have key : ∀ {n : Str} {k : Pseudo}, pseudoOf n = some k →
      (simpleB v ps x (.pseudo n) = pseudoB v x k ∧ (Sat v ps x (.pseudo n) ↔ PseudoSat v x k)) := by
    intro n k h
    refine ⟨by simp [simpleB, h], ?_⟩
    simp only [Sat, PseudoNamed, ← pseudoOf_iff, h]
    simp
  have hsome : ∀ o : Option Str, o.isSome = true ↔ o ≠ none := by intro o; cases o <;> simp
  have hnone : ∀ o : Option Str, o.isNone = true ↔ o = none := by intro o; cases o <;> simp
  refine ⟨fun ht => ⟨?_, ?_⟩, fun ht => ?_, ?_, fun hc => ?_⟩
  · rw [(key (n := "disabled".toList) (k := .disabled) (by decide +kernel)).1,
      (key (n := "disabled".toList) (k := .disabled) (by decide +kernel)).2]
    simp only [pseudoB, PseudoSat, hsome]
    exact ⟨fun h => ⟨ht, h⟩, fun h => h.2⟩
  · rw [(key (n := "enabled".toList) (k := .enabled) (by decide +kernel)).1,
      (key (n := "enabled".toList) (k := .enabled) (by decide +kernel)).2]
    simp only [pseudoB, PseudoSat, hx, Bool.and_true, hnone]
    exact ⟨fun h => ⟨ht, h⟩, fun h => h.2⟩
  · rw [(key (n := "read-write".toList) (k := .readWrite) (by decide +kernel)).1,
      (key (n := "read-write".toList) (k := .readWrite) (by decide +kernel)).2]
    simp only [pseudoB, PseudoSat, hx, Bool.and_true, Bool.and_eq_true, hnone, Editable]
    exact ⟨fun h => ⟨ht, h⟩, fun h => h.2⟩
  · rw [(key (n := "read-only".toList) (k := .readOnly) (by decide +kernel)).1,
      (key (n := "read-only".toList) (k := .readOnly) (by decide +kernel)).2]
    simp only [pseudoB, PseudoSat, hsome, Editable]
    exact fun h e => h e.2.1
  · rw [(key (n := "checked".toList) (k := .checked) (by decide +kernel)).1,
      (key (n := "checked".toList) (k := .checked) (by decide +kernel)).2]
    simp only [pseudoB, PseudoSat, hsome]
    refine ⟨fun h => .inl ⟨hc, h⟩, ?_⟩
    rintro (h | h)
    · exact h.2
    · rw [hc.1] at h; exact absurd h.1 (by decide +kernel)

/-- an element with attributes -/
def mk (name : String) (attrs : List (Str × Str)) : Dom.Op := .createElement name.toList "html".toList attrs

/-- a document: `<html><a><b><b class="k x"><c></c></b></b></a></html>` -/
def nestOps : List Dom.Op :=
  [mk "html" [], .attach 1 0 none, mk "a" [], .attach 2 1 none, mk "b" [], .attach 3 2 none,
   mk "b" [("class".toList, "k x".toList)], .attach 4 3 none, mk "c" [], .attach 5 4 none]

theorem nest_tidy : Dom.Reach Dom.Tidy (Dom.after nestOps) :=
  Dom.reach_all Dom.tidyB_sound nestOps .new (by decide +kernel)

/-- `<html>text<b></b><a class="k"></a>text<c title="T U"></c></html>` -/
def rowOps : List Dom.Op :=
  [mk "html" [], .attach 1 0 none, .createText "text".toList, .attach 2 1 none, mk "b" [], .attach 3 1 none,
   mk "a" [("class".toList, "k".toList)], .attach 4 1 none, .createText "text".toList, .attach 5 1 none,
   mk "c" [("title".toList, "T U".toList)], .attach 6 1 none]

theorem row_tidy : Dom.Reach Dom.Tidy (Dom.after rowOps) :=
  Dom.reach_all Dom.tidyB_sound rowOps .new (by decide +kernel)

/-- the first document -/
abbrev nest : View := View.ofDoc (Dom.after nestOps)
/-- the second document -/
abbrev row : View := View.ofDoc (Dom.after rowOps)

/-- a type selector -/
def ty (n : String) : List Simple := [.type n.toList]

/-- an attribute selector for `title` -/
def titleSel (m : Matcher) (value : String) (ci : Bool) : List Simple :=
  [.attr ⟨"title".toList, m, value.toList, ci⟩]

theorem nest_rooted : Rooted nest 5 := by
  intro y hy he
  have h0 : Dom.parent (Dom.after nestOps) 0 = none := by decide +kernel
  rcases Nat.lt_or_ge y 6 with h | h
  · have hall : ∀ y : Fin 6, nest.isElem y = true → (nest.parent y).isSome = true := by decide +kernel
    exact hall ⟨y, h⟩ he
  · have : nest.isElem y = false := by
      show ((Dom.nodeAt (Dom.after nestOps) y).bind Dom.elemOf).isSome = false
      have hlen : (Dom.after nestOps).nodes.length = 6 := by decide +kernel
      unfold Dom.nodeAt
      rw [List.getElem?_eq_none (by omega)]
      rfl
    rw [this] at he; exact absurd he (by simp)

/-- the hypotheses are met by `a b > c` on the innermost element, and both sides are true -/
example : nest.Ok ∧ nest.isElem 5 = true ∧ Rooted nest 5 ∧
    (Complex.link (.link (.compound (ty "a")) .descendant (ty "b")) .child (ty "c")).Fine nest ∧
    (Complex.link (.link (.compound (ty "a")) .descendant (ty "b")) .child (ty "c")).Pinned ∧
    (Complex.link (.link (.compound (ty "a")) .descendant (ty "b")) .child (ty "c")).SibTame ∧
    (Complex.link (.link (.compound (ty "a")) .descendant (ty "b")) .child (ty "c")).DescTame nest ∧
    matchParts nest none 5
      (Complex.link (.link (.compound (ty "a")) .descendant (ty "b")) .child (ty "c")).parts = true := by
  refine ⟨ofDoc_ok nest_tidy, by decide +kernel, nest_rooted, ?_, ?_, ?_, ?_, by decide +kernel⟩
  · simp [Complex.Fine, ty, Plain]
  · simp [Complex.Pinned, Complex.last, ty, Pins]
  · simp [Complex.SibTame]
  · simp [Complex.DescTame, Complex.AllDesc, Complex.last, ty]

/-- C43 fails: matches are missed.  (1) `a > b c`: only the nearest `b` above `c` is tried.  (2) `a.k ~ c`: after
`.k` is found on a sibling, `a` is looked for on `c`.  (3) `a + c`: a text node in between hides `a`.
(4) `b:first-child`: a text node counts as a child.  (5) `[title~="T"]`: the words of the selector, not those
of the attribute, are searched.  (6) `[title="t u" i]` compares with the name of the attribute. -/
theorem C43_missed_match_violated :
    (Matches nest none 5 (.link (.link (.compound (ty "a")) .child (ty "b")) .descendant (ty "c")) ∧
      matchParts nest none 5 (Complex.link (.link (.compound (ty "a")) .child (ty "b")) .descendant (ty "c")).parts
        = false) ∧
    (Matches row none 6 (.link (.compound [.type "a".toList, .cls "k".toList]) .subsequent (ty "c")) ∧
      matchParts row none 6 (Complex.link (.compound [.type "a".toList, .cls "k".toList]) .subsequent (ty "c")).parts
        = false) ∧
    (Matches row none 6 (.link (.compound (ty "a")) .next (ty "c")) ∧
      matchParts row none 6 (Complex.link (.compound (ty "a")) .next (ty "c")).parts = false) ∧
    (Matches row none 3 (.compound [.type "b".toList, .pseudo "first-child".toList]) ∧
      matchParts row none 3 (Complex.compound [.type "b".toList, .pseudo "first-child".toList]).parts = false) ∧
    (Matches row none 6 (.compound (titleSel .includes "T" false)) ∧
      matchParts row none 6 (Complex.compound (titleSel .includes "T" false)).parts = false) ∧
    (Matches row none 6 (.compound (titleSel .equals "t u" true)) ∧
      matchParts row none 6 (Complex.compound (titleSel .equals "t u" true)).parts = false) := by
  have kids : row.children 1 = [2, 3, 4, 5, 6] := by decide +kernel
  have on1 : ∀ {v : View} {x : Nat} {n : String}, v.isElem x = true → v.tag x = some n.toList →
      OnElement v none x (ty n) := by
    intro v x n h1 h2
    refine ⟨h1, fun s hs => ?_⟩
    rw [List.mem_singleton.mp hs]; exact h2
  refine ⟨⟨⟨on1 (by decide +kernel) (by decide +kernel), 3, ?_, on1 (by decide +kernel) (by decide +kernel), 2, ?_,
    on1 (by decide +kernel) (by decide +kernel)⟩, by decide +kernel⟩,
    ⟨⟨on1 (by decide +kernel) (by decide +kernel), 4, ?_, by decide +kernel, ?_⟩, by decide +kernel⟩,
    ⟨⟨on1 (by decide +kernel) (by decide +kernel), 4, ?_, on1 (by decide +kernel) (by decide +kernel)⟩,
      by decide +kernel⟩,
    ⟨⟨by decide +kernel, ?_⟩, by decide +kernel⟩, ⟨⟨by decide +kernel, ?_⟩, by decide +kernel⟩,
    ⟨⟨by decide +kernel, ?_⟩, by decide +kernel⟩⟩
  · have h1 : nest.parent 5 = some 4 := by decide +kernel
    have h2 : nest.parent 4 = some 3 := by decide +kernel
    exact .head h1 (.single h2)
  · show nest.parent 3 = some 2
    decide +kernel
  · exact ⟨[5], 1, [2, 3], [], by decide +kernel, by rw [kids]; rfl⟩
  · intro s hs
    simp only [List.mem_cons, List.not_mem_nil, or_false] at hs
    rcases hs with rfl | rfl
    · show row.tag 4 = some "a".toList
      decide +kernel
    · show row.hasClass 4 "k".toList = true
      decide +kernel
  · refine ⟨[5], ⟨1, [2, 3], [], by decide +kernel, by rw [kids]; rfl⟩, ?_⟩
    intro z hz
    rw [List.mem_singleton.mp hz]; decide +kernel
  · intro s hs
    simp only [List.mem_cons, List.not_mem_nil, or_false] at hs
    rcases hs with rfl | rfl
    · show row.tag 3 = some "b".toList
      decide +kernel
    · refine ⟨.firstChild, by simp [Pseudo.names], 1, [2], [4, 5, 6], by decide +kernel, by rw [kids]; rfl, ?_⟩
      intro y hy
      rw [List.mem_singleton.mp hy]; decide +kernel
  · intro s hs
    rw [List.mem_singleton.mp hs]
    refine ⟨"T U".toList, by decide +kernel, ?_⟩
    show Dom.IsWord "T".toList "T U".toList
    rw [← Dom.mem_words]; decide +kernel
  · intro s hs
    rw [List.mem_singleton.mp hs]
    refine ⟨"T U".toList, by decide +kernel, ?_⟩
    show lower "T U".toList = lower "t u".toList
    decide +kernel

/-- C43 fails: there are matches that CSS does not have.  (1) `* > html`: the document node counts as an element.
(2) `a ~ b ~ c` on `b a c`: after `b` is found the search for `a` starts again at `c`.  (3) `[title^=""]`. -/
theorem C43_wrong_match_violated :
    (¬ Matches nest none 1 (.link (.compound [.universal]) .child (ty "html")) ∧
      matchParts nest none 1 (Complex.link (.compound [.universal]) .child (ty "html")).parts = true) ∧
    (¬ Matches row none 6 (.link (.link (.compound (ty "a")) .subsequent (ty "b")) .subsequent (ty "c")) ∧
      matchParts row none 6
        (Complex.link (.link (.compound (ty "a")) .subsequent (ty "b")) .subsequent (ty "c")).parts = true) ∧
    (¬ Matches row none 6 (.compound (titleSel .pre "" false)) ∧
      matchParts row none 6 (Complex.compound (titleSel .pre "" false)).parts = true) := by
  have hok := ofDoc_ok row_tidy
  refine ⟨⟨?_, by decide +kernel⟩, ⟨?_, by decide +kernel⟩, ⟨?_, by decide +kernel⟩⟩
  · rintro ⟨-, y, hy, he, -⟩
    have h1 : nest.parent 1 = some 0 := by decide +kernel
    have hy : nest.parent 1 = some y := hy
    rw [h1] at hy
    cases hy
    exact absurd he (by decide +kernel)
  · rintro ⟨-, y, ⟨t, p, a, b, hp, hc⟩, ⟨-, hy⟩, z, ⟨t', q, a', b', hq, hc'⟩, -, hz⟩
    have hy : row.tag y = some "b".toList := hy _ (List.mem_singleton.mpr rfl)
    have hz : row.tag z = some "a".toList := hz _ (List.mem_singleton.mpr rfl)
    have hp1 : row.parent 6 = some 1 := by decide +kernel
    rw [hp1] at hp; cases hp
    have kids : row.children 1 = [2, 3, 4, 5, 6] := by decide +kernel
    have hmem : y ∈ row.children 1 := by rw [hc]; simp
    have hq1 := hok.child _ _ hmem
    rw [hq1] at hq; cases hq
    have hzm : z ∈ row.children 1 := by rw [hc']; simp
    have hbz : ∀ w ∈ row.children 1, row.tag w = some "a".toList → w = 4 := by rw [kids]; decide +kernel
    have hby : ∀ w ∈ row.children 1, row.tag w = some "b".toList → w = 3 := by rw [kids]; decide +kernel
    rw [hbz z hzm hz, hby y hmem hy, kids] at hc'
    have hnd : ([2, 3, 4, 5, 6] : List Nat).Nodup := by decide
    have h4 : (a' ++ 4 :: t' ++ 3 :: b').Nodup := by rw [← hc']; exact hnd
    have : 4 ∈ upTo 3 (a' ++ 4 :: t' ++ 3 :: b') := upTo_of h4
    rw [← hc'] at this
    exact absurd this (by decide)
  · rintro ⟨-, h⟩
    obtain ⟨g, -, h, -⟩ := h _ (List.mem_singleton.mpr rfl)
    exact h rfl

/-- `<html><div></div><input type="Radio" checked><textarea disabled></textarea></html>` -/
def formOps : List Dom.Op :=
  [mk "html" [], .attach 1 0 none, mk "div" [], .attach 2 1 none,
   mk "input" [("type".toList, "Radio".toList), ("checked".toList, [])], .attach 3 1 none,
   mk "textarea" [("disabled".toList, [])], .attach 4 1 none]

theorem form_tidy : Dom.Reach Dom.Tidy (Dom.after formOps) :=
  Dom.reach_all Dom.tidyB_sound formOps .new (by decide +kernel)

example : IsCheckable (View.ofDoc (Dom.after formOps)) 3 ∧
    simpleB (View.ofDoc (Dom.after formOps)) none 3 (.pseudo "checked".toList) = true ∧
    simpleB (View.ofDoc (Dom.after formOps)) none 4 (.pseudo "disabled".toList) = true ∧
    simpleB (View.ofDoc (Dom.after formOps)) none 4 (.pseudo "enabled".toList) = false ∧
    simpleB (View.ofDoc (Dom.after formOps)) none 3 (.pseudo "read-write".toList) = true := by
  refine ⟨⟨by decide +kernel, "Radio".toList, by decide +kernel, .inr (by decide +kernel)⟩, ?_⟩
  decide +kernel

/-- C43 fails for form states: a `div` is `:enabled` and `:read-write`, and neither it nor a disabled text area is
`:read-only`. -/
theorem C43_form_violated :
    (matchParts (View.ofDoc (Dom.after formOps)) none 2 [.simple (.pseudo "enabled".toList)] = true ∧
      ¬ PseudoSat (View.ofDoc (Dom.after formOps)) 2 .enabled) ∧
    (matchParts (View.ofDoc (Dom.after formOps)) none 2 [.simple (.pseudo "read-write".toList)] = true ∧
      ¬ PseudoSat (View.ofDoc (Dom.after formOps)) 2 .readWrite) ∧
    (matchParts (View.ofDoc (Dom.after formOps)) none 2 [.simple (.pseudo "read-only".toList)] = false ∧
      PseudoSat (View.ofDoc (Dom.after formOps)) 2 .readOnly) ∧
    (matchParts (View.ofDoc (Dom.after formOps)) none 4 [.simple (.pseudo "read-only".toList)] = false ∧
      PseudoSat (View.ofDoc (Dom.after formOps)) 4 .readOnly) := by
  refine ⟨⟨by decide +kernel, ?_⟩, ⟨by decide +kernel, ?_⟩, ⟨by decide +kernel, ?_⟩, ⟨by decide +kernel, ?_⟩⟩
  · rintro ⟨⟨t, h1, h2⟩, -⟩
    revert h2
    have : ∀ t ∈ formTags, (View.ofDoc (Dom.after formOps)).tag 2 ≠ some t := by decide +kernel
    exact this t h1
  · rintro ⟨⟨t, h1, h2⟩, -⟩
    revert h2
    have : ∀ t ∈ editTags, (View.ofDoc (Dom.after formOps)).tag 2 ≠ some t := by decide +kernel
    exact this t h1
  · rintro ⟨⟨t, h1, h2⟩, -⟩
    revert h2
    have : ∀ t ∈ editTags, (View.ofDoc (Dom.after formOps)).tag 2 ≠ some t := by decide +kernel
    exact this t h1
  · rintro ⟨-, -, h⟩
    exact absurd h (by decide +kernel)

/-! ## C45 -/

theorem fold_counts : ∀ (l : List Part) (s : Spec3), l.foldl Spec3.add s =
    ⟨s.a + (specificity l).a, s.b + (specificity l).b, s.c + (specificity l).c⟩ := by
  have gen : ∀ (l : List Part) (s : Spec3), l.foldl Spec3.add s =
      ⟨s.a + l.countP (fun p => match p with | .simple (.id _) => true | _ => false),
       s.b + l.countP (fun p => match p with | .simple (.cls _) => true | _ => false),
       s.c + l.countP (fun p => match p with | .simple (.type _) => true | _ => false)⟩ := by
    intro l
    induction l with
    | nil => intro s; rfl
    | cons p l ih =>
      intro s
      rw [List.foldl_cons, ih]
      cases p with
      | comb c => simp [Spec3.add, List.countP_cons]
      | simple k => cases k <;> simp [Spec3.add, List.countP_cons] <;> omega
  intro l s
  rw [gen l s, specificity, gen l ⟨0, 0, 0⟩]
  simp

/-- C45, counting: the matcher's specificity never exceeds that of CSS in any place, its number of ids is
right, and it is right altogether for selectors without attributes, pseudo-classes and pseudo-elements. -/
theorem C45_count_partial (parts : List Part) :
    (specificity parts).a = (cssSpecificity parts).a ∧
    (specificity parts).b ≤ (cssSpecificity parts).b ∧
    (specificity parts).c ≤ (cssSpecificity parts).c ∧
    (Basic parts → specificity parts = cssSpecificity parts) := by
  induction parts with
  | nil => exact ⟨rfl, Nat.le_refl _, Nat.le_refl _, fun _ => rfl⟩
  | cons p l ih =>
    obtain ⟨h1, h2, h3, h4⟩ := ih
    have hs : specificity (p :: l) = l.foldl Spec3.add (Spec3.add ⟨0, 0, 0⟩ p) := rfl
    rw [hs, fold_counts]
    refine ⟨?_, ?_, ?_, ?_⟩
    · rw [h1]
      cases p with
      | comb c => simp [Spec3.add, cssSpecificity, List.countP_cons]
      | simple k => cases k <;> simp [Spec3.add, cssSpecificity, List.countP_cons] <;> omega
    · simp only [cssSpecificity] at h2 ⊢
      cases p with
      | comb c => simp [Spec3.add, List.countP_cons]; omega
      | simple k => cases k <;> simp [Spec3.add, List.countP_cons] <;> omega
    · simp only [cssSpecificity] at h3 ⊢
      cases p with
      | comb c => simp [Spec3.add, List.countP_cons]; omega
      | simple k => cases k <;> simp [Spec3.add, List.countP_cons] <;> omega
    · intro hb
      have hl := h4 (fun q hq => hb q (List.mem_cons_of_mem _ hq))
      have hp := hb p (by simp)
      rw [hl]
      cases p with
      | comb c => simp [Spec3.add, cssSpecificity, List.countP_cons]
      | simple k =>
        have hk := hp k rfl
        cases k <;> simp_all [Spec3.add, cssSpecificity, List.countP_cons] <;> omega

/-- C45, which selector of the list counts: the first that matches. -/
theorem C45_first (v : View) (x : Nat) (lists : List (List Part)) :
    ((∀ l ∈ lists, matchParts v none x l = false) ∧ (matchSelector v x none lists).1 = false) ∨
    ∃ a l b, lists = a ++ l :: b ∧ (∀ m ∈ a, matchParts v none x m = false) ∧ matchParts v none x l = true ∧
      matchSelector v x none lists = (true, specificity l) := by
  induction lists with
  | nil => left; exact ⟨by simp, rfl⟩
  | cons l r ih =>
    cases hl : matchParts v none x l with
    | true =>
      right
      exact ⟨[], l, r, rfl, by simp, hl, by simp [matchSelector, targets, hl]⟩
    | false =>
      have he : matchSelector v x none (l :: r) = matchSelector v x none r := by simp [matchSelector, hl]
      rw [he]
      rcases ih with ⟨h1, h2⟩ | ⟨a, m, b, h1, h2, h3, h4⟩
      · left
        refine ⟨?_, h2⟩
        intro m hm
        rcases List.mem_cons.mp hm with rfl | hm
        · exact hl
        · exact h1 m hm
      · right
        refine ⟨l :: a, m, b, by rw [h1]; rfl, ?_, h3, h4⟩
        intro n hn
        rcases List.mem_cons.mp hn with rfl | hn
        · exact hl
        · exact h2 n hn

/-- C45, for lists of selectors without attributes, pseudo-classes and pseudo-elements in which no selector is
less specific than a later one: the specificity used is the one CSS defines of the most specific selector of
the list that matches.  Missing: the other lists, for which it fails (`C45_violated`). -/
theorem C45_partial (v : View) (x : Nat) {lists : List (List Part)} (hb : ∀ l ∈ lists, Basic l)
    (hs : lists.Pairwise fun l m => ¬ (cssSpecificity l).Less (cssSpecificity m))
    (h : ∃ l ∈ lists, matchParts v none x l = true) :
    ∃ l ∈ lists, matchParts v none x l = true ∧ matchSelector v x none lists = (true, cssSpecificity l) ∧
      ∀ m ∈ lists, matchParts v none x m = true → ¬ (cssSpecificity l).Less (cssSpecificity m) := by
  rcases C45_first v x lists with ⟨h1, -⟩ | ⟨a, l, b, rfl, h2, h3, h4⟩
  · obtain ⟨l, hl, hm⟩ := h
    rw [h1 l hl] at hm; exact absurd hm (by simp)
  · have hl : l ∈ a ++ l :: b := by simp
    refine ⟨l, hl, h3, by rw [h4, (C45_count_partial l).2.2.2 (hb l hl)], ?_⟩
    intro m hm hmm
    rcases List.mem_append.mp hm with hm | hm
    · rw [h2 m hm] at hmm; exact absurd hmm (by simp)
    · rcases List.mem_cons.mp hm with rfl | hm
      · simp [Spec3.Less]
      · have := (List.pairwise_append.mp hs).2.1
        exact (List.pairwise_cons.mp this).1 m hm

example : (∀ l ∈ [[Part.simple (.cls "k".toList)], [Part.simple (.type "b".toList)]], Basic l) ∧
    ([[Part.simple (.cls "k".toList)], [Part.simple (.type "b".toList)]].Pairwise
      fun l m => ¬ (cssSpecificity l).Less (cssSpecificity m)) ∧
    matchSelector nest 4 none [[Part.simple (.cls "k".toList)], [Part.simple (.type "b".toList)]] =
      (true, ⟨0, 1, 0⟩) := by
  refine ⟨?_, ?_, by decide +kernel⟩
  · intro l hl p hp s hs
    simp only [List.mem_cons, List.not_mem_nil, or_false] at hl
    rcases hl with rfl | rfl <;> (rw [List.mem_singleton.mp hp] at hs; cases hs; trivial)
  · simp [Spec3.Less, cssSpecificity]

/-- C45 fails.  (1) `b, .k` on an element that matches both counts as a type selector.  (2) Attribute selectors and
pseudo-classes do not count. -/
theorem C45_violated :
    (matchSelector nest 4 none [[.simple (.type "b".toList)], [.simple (.cls "k".toList)]] = (true, ⟨0, 0, 1⟩) ∧
      matchParts nest none 4 [.simple (.cls "k".toList)] = true ∧
      Spec3.Less ⟨0, 0, 1⟩ (cssSpecificity [.simple (.cls "k".toList)])) ∧
    (matchSelector row 6 none [(titleSel .none "" false).map .simple] = (true, ⟨0, 0, 0⟩) ∧
      cssSpecificity ((titleSel .none "" false).map .simple) = ⟨0, 1, 0⟩) ∧
    (matchSelector nest 1 none [[.simple (.pseudo "root".toList)]] = (true, ⟨0, 0, 0⟩) ∧
      cssSpecificity [.simple (.pseudo "root".toList)] = ⟨0, 1, 0⟩) := by
  refine ⟨⟨by decide +kernel, by decide +kernel, ?_⟩, ⟨by decide +kernel, by decide +kernel⟩,
    ⟨by decide +kernel, by decide +kernel⟩⟩
  simp [Spec3.Less, cssSpecificity]

/-! ## C46 -/

/-- the engine's test for a node is the one of the specification -/
theorem hoverMatches_iff (fp : Prints) (v : View) (x : Nat) : hoverMatches fp v x = true ↔ Touched fp v x := by
  unfold hoverMatches Touched
  simp only [Bool.or_eq_true, withTag_iff, decide_eq_true_eq, List.any_eq_true]
  constructor
  · rintro (((h | ⟨t, h1, h2⟩) | ⟨c, h1, h2⟩) | h)
    · exact .inl h
    · exact .inr (.inl ⟨t, h2, h1⟩)
    · exact .inr (.inr (.inl ⟨c, h1, h2⟩))
    · cases hi : v.attr x "id".toList with
      | none => rw [hi] at h; simp at h
      | some i => rw [hi] at h; simp at h; exact .inr (.inr (.inr ⟨i, h, rfl⟩))
  · rintro (h | ⟨t, h1, h2⟩ | ⟨c, h1, h2⟩ | ⟨i, h1, h2⟩)
    · exact .inl (.inl (.inl h))
    · exact .inl (.inl (.inr ⟨t, h2, h1⟩))
    · exact .inl (.inr ⟨c, h1, h2⟩)
    · right; rw [h2]; simpa using h1

/-- a universal fingerprint touches every node, so nothing changed -/
theorem not_universal {ls : List (List Part)} {v w : View} (hi : Insensitive ls v w) :
    (hoverPrints ls).universal = false ∨ ∀ x, v.hovered x = w.hovered x := by
  cases hu : (hoverPrints ls).universal with
  | false => exact .inl rfl
  | true =>
    right
    intro x
    by_cases hx : v.hovered x = w.hovered x
    · exact hx
    · exact absurd (.inl hu) (hi x hx)

/-- C46, as CSS defines matching: for every style sheet, document and two hover states that differ only on nodes
the sheet's fingerprint does not name, every selector of the sheet matches the same elements in both.  (Pseudo-classes the engine does not know, such
as `:not`, match nothing here, as in the engine.) -/
theorem C46_css {lists : List (List Part)} {v w : View} (hd : HoverDiff v w) (hi : Insensitive lists v w)
    (ps : Option Str) {sel : Complex} (hs : sel.parts ∈ lists) (x : Nat) :
    Matches v ps x sel ↔ Matches w ps x sel := by
  rcases not_universal hi with hu | hu
  · have hg := guarded_of_covered sel (covered_of hu hs)
    exact ⟨matches_diff hd hi sel x hg, matches_diff hd.symm (insensitive_symm hd hi) sel x hg⟩
  · have : w = v := by
      obtain ⟨g, rfl⟩ := hd.eq
      have : g = v.hovered := by funext x; exact (hu x).symm
      rw [this]
    rw [this]

/-- C46, for the engine's matcher: the same, for selectors in which a descendant or `~` combinator stands
directly after a simple selector other than `:hover`.  Missing: the others, for which the matcher's answer may
change (`C46_violated`) although that of CSS does not (`C46_css`). -/
theorem C46_partial {lists : List (List Part)} {v w : View} (hd : HoverDiff v w) (hi : Insensitive lists v w)
    (ps : Option Str) {l : List Part} (hl : l ∈ lists) (ht : HoverTame l) (x : Nat) :
    matchParts v ps x l = matchParts w ps x l := by
  rcases not_universal hi with hu | hu
  · exact loop_diff hd hi (covered_of hu hl) ht _ _ [] (by simp) (by simp)
  · have : w = v := by
      obtain ⟨g, rfl⟩ := hd.eq
      have : g = v.hovered := by funext x; exact (hu x).symm
      rw [this]
    rw [this]

/-- `a.k:hover > b` -/
def hoverSel : List Part :=
  [.simple (.type "b".toList), .simple (.cls "k".toList), .simple hoverPart, .comb .child, .simple (.type "c".toList)]

example : HoverDiff (nest.hover []) (nest.hover [2, 1, 0]) ∧
    Insensitive [hoverSel] (nest.hover []) (nest.hover [2, 1, 0]) ∧ HoverTame hoverSel ∧
    matchParts (nest.hover [4]) none 5 hoverSel = true ∧ matchParts (nest.hover []) none 5 hoverSel = false := by
  refine ⟨⟨rfl, rfl, rfl, rfl, rfl, rfl, rfl, rfl, rfl⟩, ?_, ?_, by decide +kernel, by decide +kernel⟩
  · intro x hx ht
    rw [← hoverMatches_iff] at ht
    have hx : x ∈ [2, 1, 0] := by
      by_contra hn
      apply hx
      simp only [View.hover]
      simp only [List.mem_cons, List.not_mem_nil, or_false] at hn
      simp [hn]
    have hall : ∀ x ∈ [2, 1, 0], hoverMatches (hoverPrints [hoverSel]) (nest.hover []) x = false := by decide +kernel
    rw [hall x hx] at ht
    exact absurd ht (by simp)
  · intro pre p c post h hc
    have hmem : Part.comb c ∈ hoverSel := by rw [h]; simp
    have : ∀ c, Part.comb c ∈ hoverSel → c = .child := by
      intro c hc
      simp [hoverSel] at hc
      exact hc
    rw [this c hmem] at hc
    rcases hc with hc | hc <;> exact absurd hc (by decide)

/-- C46 fails for `a:hover c`: when the pointer moves from the `a` to the inner `b`, only elements that the
fingerprint does not name change, but the matcher, which looks only at the nearest hovered element, no longer
finds the `a`. -/
theorem C46_violated :
    HoverDiff (nest.hover [2, 1, 0]) (nest.hover [4, 3, 2, 1, 0]) ∧
    Insensitive [[.simple (.type "a".toList), .simple hoverPart, .comb .descendant, .simple (.type "c".toList)]]
      (nest.hover [2, 1, 0]) (nest.hover [4, 3, 2, 1, 0]) ∧
    matchParts (nest.hover [2, 1, 0]) none 5
      [.simple (.type "a".toList), .simple hoverPart, .comb .descendant, .simple (.type "c".toList)] = true ∧
    matchParts (nest.hover [4, 3, 2, 1, 0]) none 5
      [.simple (.type "a".toList), .simple hoverPart, .comb .descendant, .simple (.type "c".toList)] = false := by
  refine ⟨⟨rfl, rfl, rfl, rfl, rfl, rfl, rfl, rfl, rfl⟩, ?_, by decide +kernel, by decide +kernel⟩
  intro x hx ht
  rw [← hoverMatches_iff] at ht
  have hx : x ∈ [4, 3] := by
    by_contra hn
    apply hx
    simp only [View.hover]
    simp only [List.mem_cons, List.not_mem_nil, or_false, not_or] at hn
    simp [hn.1, hn.2]
  have hall : ∀ x ∈ [4, 3], hoverMatches
      (hoverPrints [[.simple (.type "a".toList), .simple hoverPart, .comb .descendant, .simple (.type "c".toList)]])
      (nest.hover [2, 1, 0]) x = false := by decide +kernel
  rw [hall x hx] at ht
  exact absurd ht (by simp)

/-- what holds between moves of the pointer -/
def PointerInv (fp : Prints) (v : View) (s : Pointer) : Prop :=
  (s.sensitive = false → ∀ x ∈ v.chain s.leaf, ¬ Touched fp v x) ∧
  (s.hovered = v.chain s.leaf ∨ s.sensitive = false ∧ ∀ x ∈ s.hovered, ¬ Touched fp v x)

theorem chainSensitive_iff (fp : Prints) (v : View) (n : Option Nat) :
    chainSensitive fp v n = false ↔ ∀ x ∈ v.chain n, ¬ Touched fp v x := by
  cases n with
  | none => simp [chainSensitive, View.chain]
  | some x =>
    rw [← Bool.not_eq_true]
    simp only [chainSensitive, View.chain, List.any_eq_true, hoverMatches_iff, not_exists, not_and]

theorem pointerInv_move {fp : Prints} {v : View} {s : Pointer} (h : PointerInv fp v s) (n : Option Nat) :
    PointerInv fp v (s.move fp v n).1 := by
  unfold Pointer.move
  split
  · exact h
  · refine ⟨fun hs => (chainSensitive_iff fp v n).mp hs, ?_⟩
    simp only
    cases hd : (s.sensitive || chainSensitive fp v n) with
    | true => left; cases n <;> rfl
    | false =>
      simp only [Bool.or_eq_false_iff] at hd
      refine .inr ⟨hd.2, ?_⟩
      simp only [Bool.false_eq_true, if_false]
      rcases h.2 with he | he
      · rw [he]; exact h.1 hd.1
      · exact he.2

/-- C46, the engine: whatever way the pointer has moved over a page, every selector of the page matches, with
the hover state the engine keeps, exactly the elements it matches with the hover state CSS defines for the
present position of the pointer. -/
theorem C46_pointer (lists : List (List Part)) (v : View) (moves : List (Option Nat)) (ps : Option Str)
    {sel : Complex} (hs : sel.parts ∈ lists) (x : Nat) :
    Matches (v.hover (Pointer.moves (hoverPrints lists) v .init moves).hovered) ps x sel ↔
      Matches (v.hover (v.chain (Pointer.moves (hoverPrints lists) v .init moves).leaf)) ps x sel := by
  have hinv : PointerInv (hoverPrints lists) v (Pointer.moves (hoverPrints lists) v .init moves) := by
    unfold Pointer.moves
    have h0 : PointerInv (hoverPrints lists) v .init := ⟨by simp [Pointer.init, View.chain], .inl rfl⟩
    generalize Pointer.init = s at h0 ⊢
    induction moves generalizing s with
    | nil => exact h0
    | cons n r ih => exact ih _ (pointerInv_move h0 n)
  generalize Pointer.moves (hoverPrints lists) v .init moves = s at hinv ⊢
  refine C46_css (lists := lists) (v := v.hover s.hovered) (w := v.hover (v.chain s.leaf)) ⟨rfl, rfl, rfl, rfl, rfl, rfl, rfl, rfl, rfl⟩ ?_ ps hs x
  intro y hy ht
  have ht : Touched (hoverPrints lists) v y := ht
  rcases hinv.2 with he | ⟨h1, h2⟩
  · rw [he] at hy; exact hy rfl
  · have hy : decide (y ∈ s.hovered) ≠ decide (y ∈ v.chain s.leaf) := hy
    by_cases ha : y ∈ s.hovered
    · exact h2 y ha ht
    · by_cases hb : y ∈ v.chain s.leaf
      · exact hinv.1 h1 y hb ht
      · simp [ha, hb] at hy

/-- C46, skipped restyles are sound: when the engine reports that a move changes nothing, then every selector
matches, with the hover state CSS defines, the same elements after the move as before. -/
theorem C46_skip (lists : List (List Part)) (v : View) (moves : List (Option Nat)) (n : Option Nat)
    (h : ((Pointer.moves (hoverPrints lists) v .init moves).move (hoverPrints lists) v n).2 = false)
    (ps : Option Str) {sel : Complex} (hs : sel.parts ∈ lists) (x : Nat) :
    Matches (v.hover (v.chain (Pointer.moves (hoverPrints lists) v .init moves).leaf)) ps x sel ↔
      Matches (v.hover (v.chain (Pointer.moves (hoverPrints lists) v .init (moves ++ [n])).leaf)) ps x sel := by
  have h1 := C46_pointer lists v moves ps hs x
  have h2 := C46_pointer lists v (moves ++ [n]) ps hs x
  have hm : Pointer.moves (hoverPrints lists) v .init (moves ++ [n]) =
      ((Pointer.moves (hoverPrints lists) v .init moves).move (hoverPrints lists) v n).1 := by
    unfold Pointer.moves
    rw [List.foldl_append]; rfl
  have hh : ((Pointer.moves (hoverPrints lists) v .init moves).move (hoverPrints lists) v n).1.hovered =
      (Pointer.moves (hoverPrints lists) v .init moves).hovered := by
    generalize Pointer.moves (hoverPrints lists) v .init moves = s at h ⊢
    unfold Pointer.move at h ⊢
    split
    · rfl
    · rename_i hne
      rw [if_neg hne] at h
      simp only at h ⊢
      simp [h]
  rw [← h1, ← h2, hm, hh]

example : (Pointer.moves (hoverPrints [hoverSel]) nest .init [some 2, some 4, some 5, some 2]) =
    ⟨some 2, false, [2, 1, 0]⟩ := by decide +kernel

end Verif.Select
