import Verif.Interact.Spec
import Verif.RenderTree.Props

/-! # C127: links and the cursor under the pointer, and C128: styles that depend on hover -/

namespace Verif.Interact

theorem upTo_chain (d : Doc) (n : Nat) (l : List Nat) (h : Chain d n l) :
    ∀ k, l.length ≤ k + 1 → upTo d k n = l := by
  induction h with
  | @top n hp =>
    intro k _
    cases k with
    | zero => rfl
    | succ k => rw [upTo, hp]
  | @up n p l hp hc ih =>
    intro k hk
    cases k with
    | zero =>
      cases hc with
      | top _ => simp at hk
      | up _ _ => simp at hk
    | succ k => rw [upTo, hp]; simp only; rw [ih k (by simpa using hk)]

theorem up_chain (d : Doc) (hb : Bounded d) (n : Nat) : Chain d n (up d n) := by
  obtain ⟨l, hc, hl⟩ := hb n
  rw [up, upTo_chain d n l hc d.height hl]; exact hc

/-! ## The walk -/

def linkB (d : Doc) (n : Nat) : Bool := d.tag n == some "a" && (d.attr n "href").isSome

def linkOf (d : Doc) (l : List Nat) : Option String := (l.find? (linkB d)).bind (fun n => d.attr n "href")

theorem walk_some (d : Doc) (l : List Nat) (h : String) (sens : Bool) :
    walk d l (some h) sens .pointer = (some h, sens || l.any d.sensitive, .pointer) := by
  induction l generalizing sens with
  | nil => simp [walk]
  | cons n l ih =>
    rw [walk]
    simp only [Option.isNone_some, Bool.false_and, Bool.false_eq_true, if_false, Option.isSome_none,
      Option.isSome_some, Bool.and_true, ne_eq, not_true_eq_false, decide_false]
    by_cases hs : (sens || d.sensitive n) = true
    · rw [if_pos hs]
      cases sens <;> simp_all
    · rw [if_neg hs, ih]
      cases sens <;> simp_all

theorem walk_none (d : Doc) (l : List Nat) (sens : Bool) (cur : Cursor) (hc : cur ≠ .pointer) :
    walk d l none sens cur = (linkOf d l, sens || l.any d.sensitive,
      if (linkOf d l).isSome then .pointer else if l.any (isTextInput d) then .text else cur) := by
  induction l generalizing sens cur with
  | nil => simp [walk, linkOf]
  | cons n l ih =>
    rw [walk]
    by_cases ha : d.tag n = some "a"
    · cases hh : d.attr n "href" with
      | some h =>
        have hl : linkB d n = true := by simp [linkB, ha, hh]
        have hlo : linkOf d (n :: l) = some h := by simp [linkOf, hl, hh]
        simp only [Option.isNone_none, ha, hh, hlo, Option.isSome_some, if_true, Bool.true_and, beq_self_eq_true,
          Bool.and_true, ne_eq, not_true_eq_false, decide_false, Bool.false_and, Bool.false_eq_true, if_false]
        by_cases hs : (sens || d.sensitive n) = true
        · rw [if_pos hs]; cases sens <;> simp_all
        · rw [if_neg hs, walk_some]; cases sens <;> simp_all
      | none =>
        have hl : linkB d n = false := by simp [linkB, ha, hh]
        have hlo : linkOf d (n :: l) = linkOf d l := by simp [linkOf, hl]
        simp only [Option.isNone_none, ha, hh, hlo, beq_self_eq_true, Bool.and_self, if_true, Option.isSome_none,
          Bool.false_eq_true, if_false, Bool.and_false, ne_eq, hc, not_false_eq_true, decide_true, Bool.true_and]
        by_cases ht : isTextInput d n = true
        · rw [if_pos ht, ih _ _ (by simp)]
          cases (linkOf d l).isSome <;> simp [ht, Bool.or_assoc]
        · rw [if_neg ht, ih _ _ hc]
          cases (linkOf d l).isSome <;> simp [ht, Bool.or_assoc]
    · have ha' : (d.tag n == some "a") = false := by simpa using ha
      have hl : linkB d n = false := by simp [linkB, ha']
      have hlo : linkOf d (n :: l) = linkOf d l := by simp [linkOf, hl]
      simp only [ha', hlo, Bool.and_false, Bool.false_eq_true, if_false, Option.isSome_none, ne_eq, hc,
        not_false_eq_true, decide_true, Bool.true_and]
      by_cases ht : isTextInput d n = true
      · rw [if_pos ht, ih _ _ (by simp)]
        cases (linkOf d l).isSome <;> simp [ht, Bool.or_assoc]
      · rw [if_neg ht, ih _ _ hc]
        cases (linkOf d l).isSome <;> simp [ht, Bool.or_assoc]

theorem linkB_iff (d : Doc) (n : Nat) : linkB d n = true ↔ IsLink d n := by
  unfold linkB IsLink
  simp only [Bool.and_eq_true, beq_iff_eq, Option.isSome_iff_exists]

theorem find_first (f : Nat → Bool) (P : Nat → Prop) (h : ∀ n, f n = true ↔ P n) (l : List Nat) :
    (∀ n, l.find? f = some n → FirstWith P l n) ∧ (l.find? f = none → ∀ k ∈ l, ¬ P k) := by
  constructor
  · induction l with
    | nil => intro n hn; cases hn
    | cons x l ih =>
      intro n hn
      rw [List.find?_cons] at hn
      cases hx : f x with
      | true =>
        rw [hx] at hn
        cases hn
        exact ⟨[], l, rfl, (h _).1 hx, by simp⟩
      | false =>
        rw [hx] at hn
        obtain ⟨a, b, rfl, hp, hno⟩ := ih n hn
        refine ⟨x :: a, b, rfl, hp, ?_⟩
        intro m hm
        rcases List.mem_cons.1 hm with rfl | hm
        · intro hP; rw [(h _).2 hP] at hx; cases hx
        · exact hno m hm
  · intro hn k hk hP
    rw [List.find?_eq_none] at hn
    exact hn k hk ((h k).2 hP)

theorem linkOf_in (d : Doc) (hb : Bounded d) (leaf : Option Nat) : InLink d leaf (linkOf d (chain d leaf)) := by
  cases leaf with
  | none => rfl
  | some n =>
    refine ⟨up d n, up_chain d hb n, ?_⟩
    obtain ⟨h1, h2⟩ := find_first (linkB d) (IsLink d) (linkB_iff d) (up d n)
    show _ ∨ (_ ∧ linkOf d (up d n) = none)
    cases hf : (up d n).find? (linkB d) with
    | none => right; exact ⟨h2 hf, by simp [linkOf, hf]⟩
    | some k =>
      left
      have h3 := h1 k hf
      have h4 := h3
      obtain ⟨_, _, _, ⟨_, h, hh⟩, _⟩ := h4
      exact ⟨k, h, h3, hh, by simp [chain, linkOf, hf, hh]⟩

theorem editable_iff (d : Doc) (n : Nat) : editable d n = true ↔
    ∃ v, d.attr n "contenteditable" = some v ∧ (v = "" ∨ eqNoCase v "true" = true) := by
  unfold editable
  cases d.attr n "contenteditable" with
  | none => simp
  | some v => simp

theorem textInput_iff (d : Doc) (n : Nat) : isTextInput d n = true ↔ TextInput d n := by
  unfold isTextInput TextInput
  cases htag : d.tag n with
  | none => simp [editable_iff]
  | some t =>
    simp only [Option.some.injEq]
    by_cases h1 : t = "textarea"
    · simp [h1]
    · by_cases h2 : t = "input"
      · subst h2
        cases hy : d.attr n "type" with
        | none => simp
        | some ty =>
          simp only [h1, if_false, if_true, true_and, false_or, Option.some.injEq]
          constructor
          · intro h
            left
            intro ty' hty w hw
            subst hty
            rw [Bool.not_eq_true', List.any_eq_false] at h
            refine Bool.eq_false_iff.2 (h w ?_)
            simp only [noText, List.mem_cons, List.not_mem_nil, or_false] at hw ⊢
            rcases hw with h | h | h | h | h | h | h | h | h | h <;> simp [h]
          · intro h
            rcases h with h | h
            · rw [Bool.not_eq_true', List.any_eq_false]
              intro w hw
              refine Bool.eq_false_iff.1 (h ty rfl w ?_)
              simp only [noText, List.mem_cons, List.not_mem_nil, or_false] at hw ⊢
              rcases hw with h | h | h | h | h | h | h | h | h | h <;> simp [h]
            · exact absurd rfl h.2.1
      · simp [h1, h2, editable_iff]

/-! ## Invariants of hover -/

def cursorOf (d : Doc) (leaf : Option Nat) : Cursor :=
  if (linkOf d (chain d leaf)).isSome then .pointer
  else if (chain d leaf).any (isTextInput d) then .text
  else match leaf with
    | some l => if d.isText l then .text else .default
    | none => .default

structure Inv (d : Doc) (s : St) : Prop where
  link : s.link = linkOf d (chain d s.leaf)
  cursor : s.cursor = cursorOf d s.leaf
  sens : s.sensitive = (chain d s.leaf).any d.sensitive
  hov : ∀ n, d.sensitive n = true → (n ∈ s.hovered ↔ n ∈ chain d s.leaf)

theorem update_ne (d : Doc) (s : St) (leaf lei : Option Nat) (h : leaf ≠ s.leaf) :
    updateHover d s leaf lei =
      ({ s with
          leaf := leaf, lei := lei, oldLei := s.lei, dirtyNodes := chain d s.leaf ++ chain d leaf,
          sensitive := (chain d leaf).any d.sensitive, link := linkOf d (chain d leaf),
          cursor := cursorOf d leaf,
          hovered := if s.sensitive || (chain d leaf).any d.sensitive then chain d leaf else s.hovered,
          hoverDirty := if s.sensitive || (chain d leaf).any d.sensitive then true else s.hoverDirty },
       s.sensitive || (chain d leaf).any d.sensitive, linkOf d (chain d leaf) != s.link) := by
  unfold updateHover
  rw [if_neg h]
  cases leaf with
  | none =>
    simp only
    rw [walk_none _ _ _ _ (by simp)]
    simp [cursorOf]
  | some l =>
    cases ht : d.isText l with
    | true =>
      simp only [ht, if_true]
      rw [walk_none _ _ _ _ (by simp)]
      simp [cursorOf, ht]
    | false =>
      simp only [ht, Bool.false_eq_true, if_false]
      rw [walk_none _ _ _ _ (by simp)]
      simp [cursorOf, ht]

theorem inv_update (d : Doc) (s : St) (leaf lei : Option Nat) (h : Inv d s) :
    Inv d (updateHover d s leaf lei).1 ∧ (updateHover d s leaf lei).1.leaf = leaf := by
  by_cases he : leaf = s.leaf
  · have : updateHover d s leaf lei = (s, false, false) := by simp [updateHover, he]
    rw [this]; exact ⟨h, he.symm⟩
  · rw [update_ne d s leaf lei he]
    refine ⟨⟨rfl, rfl, rfl, ?_⟩, rfl⟩
    intro n hn
    simp only
    split
    · rfl
    · rename_i hv
      simp only [Bool.or_eq_true, not_or, Bool.not_eq_true] at hv
      have h1 : n ∉ chain d leaf := by
        intro hm
        have := List.any_eq_false.1 hv.2 n hm
        exact this hn
      have h2 : n ∉ chain d s.leaf := by
        intro hm
        have := List.any_eq_false.1 (h.sens ▸ hv.1) n hm
        exact this hn
      rw [h.hov n hn]
      exact ⟨fun h' => absurd h' h2, fun h' => absurd h' h1⟩

theorem inv_start (d : Doc) : Inv d start := ⟨rfl, rfl, rfl, fun n _ => Iff.rfl⟩

theorem inv_repaint (d : Doc) (box : Nat → Option Rect) (tiles : List Rect) (p : List Nat) (s : St)
    (h : Inv d s) : Inv d (repaint box tiles p s) ∧ (repaint box tiles p s).leaf = s.leaf := by
  unfold repaint
  split
  · exact ⟨h, rfl⟩
  · exact ⟨⟨h.link, h.cursor, h.sens, h.hov⟩, rfl⟩

theorem inv_run (d : Doc) (box : Nat → Option Rect) (tiles : List Rect) (es : List Ev) (s : St)
    (h : Inv d s) : Inv d (run d box tiles s es) := by
  induction es generalizing s with
  | nil => exact h
  | cons e es ih =>
    cases e with
    | move leaf lei => exact ih _ (inv_update d s leaf lei h).1
    | repaint p => exact ih _ (inv_repaint d box tiles p s h).1
    | rebuild p => exact ih _ ⟨h.link, h.cursor, h.sens, h.hov⟩

theorem run_append (d : Doc) (box : Nat → Option Rect) (tiles : List Rect) (es fs : List Ev) (s : St) :
    run d box tiles s (es ++ fs) = run d box tiles (run d box tiles s es) fs := by
  induction es generalizing s with
  | nil => rfl
  | cons e es ih => cases e <;> exact ih _

/-! ## Links and the cursor -/

/-- **C127** Whatever has happened before, after a move of the pointer to a node the context reports
the address of the nearest link at or above that node, or none; the shape of the cursor is the hand
exactly on links, and elsewhere the I-beam exactly on text and in text inputs; and a change of the
address is reported exactly if it changes. -/
theorem C127_pointer (d : Doc) (hb : Bounded d) (box : Nat → Option Rect) (tiles : List Rect)
    (es : List Ev) (leaf lei : Option Nat) :
    let before := run d box tiles start es
    let after := run d box tiles start (es ++ [.move leaf lei])
    InLink d leaf after.link ∧
    (after.cursor = .pointer ↔ after.link ≠ none) ∧
    (after.cursor = .text ↔ after.link = none ∧ ∃ n, leaf = some n ∧ (d.isText n = true ∨
      ∃ l, Chain d n l ∧ ∃ k ∈ l, TextInput d k)) ∧
    ((updateHover d before leaf lei).2.2 = true ↔ after.link ≠ before.link) := by
  intro before after
  have hi : Inv d before := inv_run d box tiles es start (inv_start d)
  have ha : after = (updateHover d before leaf lei).1 := run_append d box tiles es [.move leaf lei] start
  obtain ⟨hi', hl⟩ := inv_update d before leaf lei hi
  rw [← ha] at hi' hl
  have e1 := hi'.link
  have e2 := hi'.cursor
  rw [hl] at e1 e2
  refine ⟨?_, ?_, ?_, ?_⟩
  · rw [e1]; exact linkOf_in d hb leaf
  · rw [e1, e2]
    unfold cursorOf
    cases linkOf d (chain d leaf) with
    | some u => simp
    | none =>
      simp only [Option.isSome_none, Bool.false_eq_true, if_false]
      split
      · simp
      · split
        · split <;> simp
        · simp
  · rw [e1, e2]
    unfold cursorOf
    cases linkOf d (chain d leaf) with
    | some u => simp
    | none =>
      simp only [Option.isSome_none, Bool.false_eq_true, if_false, true_and]
      cases leaf with
      | none => simp [chain]
      | some n =>
        have huniq : ∀ l, Chain d n l → l = up d n := by
          intro l hl
          obtain ⟨l', hl', hlen⟩ := hb n
          have huu : ∀ (m : Nat) (a b : List Nat), Chain d m a → Chain d m b → a = b := by
            intro m a b ha
            induction ha generalizing b with
            | top h0 =>
              intro hb'
              cases hb' with
              | top _ => rfl
              | up h1 _ => rw [h0] at h1; cases h1
            | up h0 _ ih =>
              intro hb'
              cases hb' with
              | top h1 => rw [h0] at h1; cases h1
              | up h1 h2 =>
                rw [h0] at h1; cases h1
                rw [ih _ h2]
          exact huu n l (up d n) hl (up_chain d hb n)
        simp only [Option.some.injEq, exists_eq_left']
        by_cases ht : (chain d (some n)).any (isTextInput d) = true
        · rw [if_pos ht]
          simp only [true_iff]
          right
          obtain ⟨k, hk, h⟩ := List.any_eq_true.1 ht
          exact ⟨up d n, up_chain d hb n, k, hk, (textInput_iff d k).1 h⟩
        · rw [if_neg ht]
          have hno : ¬ ∃ l, Chain d n l ∧ ∃ k ∈ l, TextInput d k := by
            rintro ⟨l, hl, k, hk, h⟩
            rw [huniq l hl] at hk
            exact ht (List.any_eq_true.2 ⟨k, hk, (textInput_iff d k).2 h⟩)
          simp only [hno, or_false]
          cases d.isText n <;> simp
  · by_cases he : leaf = before.leaf
    · have hu : updateHover d before leaf lei = (before, false, false) := by simp [updateHover, he]
      rw [ha, hu]; simp
    · rw [ha, update_ne d before leaf lei he]
      simp

/-- **C127** The link that the test of a point finds is the nearest link at or above the node at the
point, too. -/
theorem C127_hit (d : Doc) (hb : Bounded d) (leaf : Option Nat) : InLink d leaf (hitLink d leaf) := by
  have h1 : ∀ (l : List Nat) (u : String), l.foldl (hitStep d) (some u) = some u := by
    intro l u
    induction l with
    | nil => rfl
    | cons n l ih =>
      have : hitStep d (some u) n = some u := by simp [hitStep]
      rw [List.foldl_cons, this, ih]
  have h2 : ∀ l : List Nat, l.foldl (hitStep d) none = linkOf d l := by
    intro l
    induction l with
    | nil => rfl
    | cons n l ih =>
      rw [List.foldl_cons]
      by_cases ha : d.tag n = some "a"
      · cases hh : d.attr n "href" with
        | some h =>
          have hl : linkB d n = true := by simp [linkB, ha, hh]
          have : hitStep d none n = some h := by simp [hitStep, ha, hh]
          rw [this, h1]
          simp [linkOf, hl, hh]
        | none =>
          have hl : linkB d n = false := by simp [linkB, ha, hh]
          have : hitStep d none n = none := by simp [hitStep, hh]
          rw [this, ih]
          simp [linkOf, hl]
      · have ha' : (d.tag n == some "a") = false := by simpa using ha
        have hl : linkB d n = false := by simp [linkB, ha']
        have : hitStep d none n = none := by simp [hitStep, ha']
        rw [this, ih]
        simp [linkOf, hl]
  rw [hitLink, h2]
  exact linkOf_in d hb leaf

/-- A page with a root 0, a link 1 that holds a text 2, and a text 3; a rule with `:hover` for node 1. -/
def page : Doc where
  root := 0
  children := fun n => if n = 0 then [1, 3] else if n = 1 then [2] else []
  parent := fun n => if n = 1 ∨ n = 3 then some 0 else if n = 2 then some 1 else none
  isElement := fun n => n == 0 || n == 1
  isText := fun n => n == 2 || n == 3
  tag := fun n => if n = 1 then some "a" else if n = 0 then some "html" else none
  attr := fun n k => if n = 1 ∧ k = "href" then some "/next" else none
  index := fun _ => none
  sensitive := fun n => n == 1
  height := 3

theorem page_bounded : Bounded page := by
  intro n
  by_cases h1 : n = 1
  · subst h1
    exact ⟨[1, 0], .up (p := 0) rfl (.top rfl), by decide⟩
  · by_cases h3 : n = 3
    · subst h3
      exact ⟨[3, 0], .up (p := 0) rfl (.top rfl), by decide⟩
    · by_cases h2 : n = 2
      · subst h2
        exact ⟨[2, 1, 0], .up (p := 1) rfl (.up (p := 0) rfl (.top rfl)), by decide⟩
      · exact ⟨[n], .top (by simp [page, h1, h2, h3]), by simp⟩

example : (run page (fun _ => none) [] start [.move (some 3) none, .move (some 2) none]).link = some "/next" ∧
    (run page (fun _ => none) [] start [.move (some 3) none]).cursor = .text ∧
    (run page (fun _ => none) [] start [.move (some 0) none]).link = none := by decide

/-- **C127 is violated**: a click opens the link where the pointer last moved, not the link at the point
of the click. If the page has been scrolled under the pointer in the meantime, so that another node is
there, a click on a text that is in no link leaves the page. -/
theorem C127_click_violated : ∃ (d : Doc) (es : List Ev) (leaf : Nat), Bounded d ∧
    hitLink d (some leaf) = none ∧ clickLink (run d (fun _ => none) [] start es) = some "/next" :=
  ⟨page, [.move (some 2) (some 2)], 3, page_bounded, by decide, by decide⟩

/-- **C127 is violated**: the walk from a generated node (`::before`, `::after` or their text, see C125)
ends at once, because the walk asks the document, which does not have the node. The generated content
of a link is not part of the link: no address, no hand, and a click on it does nothing and takes the
focus away. -/
theorem C127_generated_violated : ∃ (r : RenderTree.Real) (here : Nat → Prop) (d : Doc) (leaf owner : Nat),
    r.Tree here ∧ here owner ∧ d.parent = r.parent ∧ d.tag = r.tag ∧
    leaf ∈ r.kids owner ∧ r.parentOf leaf = some owner ∧ IsLink d owner ∧ isFocusable d owner = true ∧
    (updateHover d start (some leaf) none).1.link = none ∧ hitLink d (some leaf) = none ∧
    focusAt d (some leaf) = none := by
  refine ⟨{ RenderTree.sample with tag := fun n => if n = 1 then some "a" else none }, fun n => n < 3,
    { page with
      parent := RenderTree.sample.parent,
      tag := fun n => if n = 1 then some "a" else none },
    2 ^ 62 + 4, 1, ?_, by omega, rfl, rfl, by decide, by decide, ⟨by decide, "/next", by decide⟩, by decide,
    by decide, by decide, by decide⟩
  exact ⟨RenderTree.sample_tree.small, RenderTree.sample_tree.closed, RenderTree.sample_tree.up⟩

/-! ## Styles that depend on hover -/

theorem overlaps_left (t a b : Rect) (h : overlaps t a = true) : overlaps t (union a b) = true := by
  simp only [overlaps, union, Bool.and_eq_true, decide_eq_true_eq] at *
  obtain ⟨⟨⟨h1, h2⟩, h3⟩, h4⟩ := h
  refine ⟨⟨⟨?_, ?_⟩, ?_⟩, ?_⟩
  · apply decide_eq_true
    show t.x < min a.x b.x + (max (a.x + a.width) (b.x + b.width) - min a.x b.x)
    omega
  · apply decide_eq_true
    show min a.x b.x < t.x + t.width
    omega
  · apply decide_eq_true
    show t.y < min a.y b.y + (max (a.y + a.height) (b.y + b.height) - min a.y b.y)
    omega
  · apply decide_eq_true
    show min a.y b.y < t.y + t.height
    omega

theorem overlaps_right (t a b : Rect) (h : overlaps t b = true) : overlaps t (union a b) = true := by
  simp only [overlaps, union, Bool.and_eq_true, decide_eq_true_eq] at *
  obtain ⟨⟨⟨h1, h2⟩, h3⟩, h4⟩ := h
  refine ⟨⟨⟨?_, ?_⟩, ?_⟩, ?_⟩
  · apply decide_eq_true
    show t.x < min a.x b.x + (max (a.x + a.width) (b.x + b.width) - min a.x b.x)
    omega
  · apply decide_eq_true
    show min a.x b.x < t.x + t.width
    omega
  · apply decide_eq_true
    show t.y < min a.y b.y + (max (a.y + a.height) (b.y + b.height) - min a.y b.y)
    omega
  · apply decide_eq_true
    show min a.y b.y < t.y + t.height
    omega

/-- The element is on some tile. -/
def On (box : Nat → Option Rect) (tiles : List Rect) (e : Option Nat) : Prop :=
  ∀ k, e = some k → ∃ r, box k = some r ∧ ∃ t ∈ tiles, overlaps t r = true

theorem redrawn_some (box : Nat → Option Rect) (tiles : List Rect) (s : St) (h1 : On box tiles s.oldLei)
    (h2 : On box tiles s.lei) (h : s.oldLei ≠ none ∨ s.lei ≠ none) : (redrawn box tiles s).isEmpty = false := by
  have key : ∀ r t, hoverRect box s.oldLei s.lei = some r → t ∈ tiles → overlaps t r = true →
      (redrawn box tiles s).isEmpty = false := by
    intro r t hr ht ho
    have hr' : redrawn box tiles s = tiles.filter (fun t => overlaps t r) := by simp [redrawn, hr]
    rw [hr']
    have : t ∈ tiles.filter (fun t => overlaps t r) := List.mem_filter.2 ⟨ht, ho⟩
    cases hf : tiles.filter (fun t => overlaps t r) with
    | nil => rw [hf] at this; cases this
    | cons _ _ => rfl
  unfold On at h1 h2
  unfold hoverRect at key
  cases ho : s.oldLei with
  | none =>
    cases hn : s.lei with
    | none => simp [ho, hn] at h
    | some b =>
      obtain ⟨r, hr, t, ht, hov⟩ := h2 b hn
      refine key r t ?_ ht hov
      simp [ho, hn, hr]
  | some a =>
    obtain ⟨r, hr, t, ht, hov⟩ := h1 a ho
    cases hn : s.lei with
    | none => exact key r t (by simp [ho, hn, hr]) ht hov
    | some b =>
      obtain ⟨r', hr', t', ht', hov'⟩ := h2 b hn
      exact key (union r r') t (by simp [ho, hn, hr, hr']) ht (overlaps_left t r r' hov)

structure Ok (d : Doc) (box : Nat → Option Rect) (tiles : List Rect) (s : St) : Prop where
  inv : Inv d s
  fresh : Fresh d s
  clean : s.hoverDirty = false
  lei : s.leaf ≠ none → s.lei ≠ none
  on : On box tiles s.lei

theorem ok_turn (d : Doc) (box : Nat → Option Rect) (tiles : List Rect) (s : St) (t : Turn)
    (h : Ok d box tiles s) (h1 : t.leaf ≠ none → t.lei ≠ none) (h2 : On box tiles t.lei) :
    Ok d box tiles (run d box tiles s t.events) := by
  show Ok d box tiles (repaint box tiles t.painted (updateHover d s t.leaf t.lei).1)
  by_cases he : t.leaf = s.leaf
  · have hu : updateHover d s t.leaf t.lei = (s, false, false) := by simp [updateHover, he]
    rw [hu]
    have : repaint box tiles t.painted s = s := by simp [repaint, h.clean]
    simp only [this]; exact h
  · have hi := (inv_repaint d box tiles t.painted _ (inv_update d s t.leaf t.lei h.inv).1).1
    have hle := (inv_repaint d box tiles t.painted _ (inv_update d s t.leaf t.lei h.inv).1).2
    have hlf := (inv_update d s t.leaf t.lei h.inv).2
    cases hv : s.sensitive || (chain d t.leaf).any d.sensitive with
    | false =>
      have hup := update_ne d s t.leaf t.lei he
      rw [hv] at hup
      have hd : (updateHover d s t.leaf t.lei).1.hoverDirty = false := by rw [hup]; exact h.clean
      have hr : repaint box tiles t.painted (updateHover d s t.leaf t.lei).1 = (updateHover d s t.leaf t.lei).1 := by
        simp [repaint, hd]
      rw [hr] at hi ⊢
      simp only [Bool.or_eq_false_iff] at hv
      refine ⟨hi, ?_, hd, ?_, ?_⟩
      · intro n b hn hb
        rw [hup] at hb
        rw [hlf]
        have hf := h.fresh n b hn hb
        have n1 : n ∉ chain d t.leaf := fun hm => List.any_eq_false.1 hv.2 n hm hn
        have n2 : n ∉ chain d s.leaf := fun hm => List.any_eq_false.1 (h.inv.sens ▸ hv.1) n hm hn
        exact ⟨fun hb => absurd (hf.1 hb) n2, fun hm => absurd hm n1⟩
      · rw [hup]; exact h1
      · rw [hup]; exact h2
    | true =>
      have hup := update_ne d s t.leaf t.lei he
      rw [hv] at hup
      simp only [if_true] at hup
      have hsome : s.lei ≠ none ∨ t.lei ≠ none := by
        simp only [Bool.or_eq_true] at hv
        rcases hv with hv | hv
        · left
          apply h.lei
          intro hnone
          rw [h.inv.sens, hnone] at hv
          simp [chain] at hv
        · right
          apply h1
          intro hnone
          rw [hnone] at hv
          simp [chain] at hv
      have hred : (redrawn box tiles (updateHover d s t.leaf t.lei).1).isEmpty = false := by
        refine redrawn_some box tiles _ ?_ ?_ ?_
        · rw [hup]; exact h.on
        · rw [hup]; exact h2
        · rw [hup]; exact hsome
      have hd : (updateHover d s t.leaf t.lei).1.hoverDirty = true := by rw [hup]
      refine ⟨hi, ?_, ?_, ?_, ?_⟩
      · intro n b hn hb
        rw [hle, hlf]
        unfold repaint at hb
        rw [hd, hred] at hb
        simp only [Bool.not_true, Bool.false_eq_true, if_false] at hb
        rw [hup] at hb
        simp only at hb
        by_cases hm : n ∈ chain d s.leaf ++ chain d t.leaf
        · have hc : (chain d s.leaf ++ chain d t.leaf).contains n = true := by
            rw [List.contains_iff_mem]; exact hm
          rw [hc] at hb
          simp only [if_true] at hb
          split at hb
          · cases hb
            rw [List.contains_iff_mem]
          · cases hb
        · have hc : (chain d s.leaf ++ chain d t.leaf).contains n = false := by
            cases hcc : (chain d s.leaf ++ chain d t.leaf).contains n with
            | false => rfl
            | true => exact absurd (List.contains_iff_mem.1 hcc) hm
          rw [hc] at hb
          simp only [Bool.false_eq_true, if_false] at hb
          simp only [List.mem_append, not_or] at hm
          cases hcn : s.cache n with
          | some b' =>
            rw [hcn] at hb
            simp only [Option.some.injEq] at hb
            subst hb
            have hf := h.fresh n b' hn hcn
            exact ⟨fun hb => absurd (hf.1 hb) hm.1, fun hm' => absurd hm' hm.2⟩
          | none =>
            rw [hcn] at hb
            simp only at hb
            split at hb
            · cases hb; rw [List.contains_iff_mem]
            · cases hb
      · unfold repaint; rw [hd]; rfl
      · have : (repaint box tiles t.painted (updateHover d s t.leaf t.lei).1).lei = t.lei := by
          unfold repaint; rw [hd, hup]; rfl
        rw [this, hle, hlf]; exact h1
      · have : (repaint box tiles t.painted (updateHover d s t.leaf t.lei).1).lei = t.lei := by
          unfold repaint; rw [hd, hup]; rfl
        rw [this]; exact h2

theorem where_run (d : Doc) (box : Nat → Option Rect) (tiles : List Rect) (es : List Ev) (s : St)
    (h : ∀ leaf lei, Ev.move leaf lei ∈ es → (leaf ≠ none → lei ≠ none) ∧ On box tiles lei)
    (hs : (s.leaf ≠ none → s.lei ≠ none) ∧ On box tiles s.lei) :
    ((run d box tiles s es).leaf ≠ none → (run d box tiles s es).lei ≠ none) ∧
      On box tiles (run d box tiles s es).lei := by
  induction es generalizing s with
  | nil => exact hs
  | cons e es ih =>
    have hr := fun s' => ih s' (fun a b hm => h a b (List.mem_cons_of_mem _ hm))
    cases e with
    | move leaf lei =>
      refine hr _ ?_
      by_cases he : leaf = s.leaf
      · have hu : updateHover d s leaf lei = (s, false, false) := by simp [updateHover, he]
        rw [hu]; exact hs
      · rw [update_ne d s leaf lei he]
        exact h leaf lei (by simp)
    | repaint p =>
      refine hr _ ?_
      unfold repaint
      split <;> exact hs
    | rebuild p => exact hr _ hs

/-- **C128** Take any history of moves, repaints and rebuilds. After a full rebuild, and as long as every
move of the pointer after it is followed by a repaint before the next, the styles in the cache are those
of the present place of the pointer: a node whose style can depend on hover has the style for hover
exactly if it is the node under the pointer or above it. The elements under the pointer are on some tile.

Partial: two moves between repaints leave old styles behind (`C128_missed_move_violated`), and the
styles that are computed anew are not always painted (`C128_region_violated`). -/
theorem C128_fresh_partial (d : Doc) (box : Nat → Option Rect) (tiles : List Rect) (es : List Ev)
    (painted : List Nat) (ts : List Turn)
    (h0 : ∀ leaf lei, Ev.move leaf lei ∈ es → (leaf ≠ none → lei ≠ none) ∧
      ∀ k, lei = some k → ∃ r, box k = some r ∧ ∃ tile ∈ tiles, overlaps tile r = true)
    (h1 : ∀ t ∈ ts, t.leaf ≠ none → t.lei ≠ none)
    (h2 : ∀ t ∈ ts, ∀ k, t.lei = some k → ∃ r, box k = some r ∧ ∃ tile ∈ tiles, overlaps tile r = true) :
    Fresh d (run d box tiles start (es ++ .rebuild painted :: ts.flatMap Turn.events)) := by
  rw [run_append]
  have hi := inv_run d box tiles es start (inv_start d)
  have hw := where_run d box tiles es start h0 ⟨fun h => absurd rfl h, fun k hk => by cases hk⟩
  generalize run d box tiles start es = s0 at hi hw
  have hs : Ok d box tiles (rebuild painted s0) := by
    refine ⟨⟨hi.link, hi.cursor, hi.sens, hi.hov⟩, ?_, rfl, hw.1, hw.2⟩
    intro n b hn hb
    simp only [rebuild] at hb
    split at hb
    · cases hb
      rw [List.contains_iff_mem]
      exact hi.hov n hn
    · cases hb
  have : ∀ (ts : List Turn) (s : St), Ok d box tiles s → (∀ t ∈ ts, t.leaf ≠ none → t.lei ≠ none) →
      (∀ t ∈ ts, On box tiles t.lei) → Ok d box tiles (run d box tiles s (ts.flatMap Turn.events)) := by
    intro ts
    induction ts with
    | nil => intro s h _ _; exact h
    | cons t ts ih =>
      intro s h a b
      rw [List.flatMap_cons, run_append]
      exact ih _ (ok_turn d box tiles s t h (a t (by simp)) (b t (by simp)))
        (fun t ht => a t (by simp [ht])) (fun t ht => b t (by simp [ht]))
  exact (this ts (rebuild painted s0) hs h1 h2).fresh

def onePage : Nat → Option Rect := fun _ => some ⟨0, 0, 10, 10⟩

/-- The hypotheses are met, and hover reaches the cache. -/
example : (∀ t ∈ [Turn.mk (some 2) (some 2) [1, 2], Turn.mk (some 3) (some 3) [3]], t.leaf ≠ none → t.lei ≠ none) ∧
    (∀ t ∈ [Turn.mk (some 2) (some 2) [1, 2], Turn.mk (some 3) (some 3) [3]], ∀ k, t.lei = some k →
      ∃ r, onePage k = some r ∧ ∃ tile ∈ [Rect.mk 0 0 256 256], overlaps tile r = true) ∧
    (run page onePage [⟨0, 0, 256, 256⟩] start [.rebuild [0, 1, 2, 3], .move (some 2) (some 2),
      .repaint [1, 2]]).cache 1 = some true := by
  refine ⟨by decide, ?_, by decide⟩
  intro t _ k _
  exact ⟨_, rfl, ⟨0, 0, 256, 256⟩, by simp, by decide⟩

/-- **C128 is violated**: the pointer leaves a link and moves on before the repaint. Only the nodes of
the last move are forgotten, so the link keeps its style for hover although the pointer is elsewhere,
and no later repaint will be asked for. -/
theorem C128_missed_move_violated : ∃ (d : Doc) (box : Nat → Option Rect) (tiles : List Rect) (es : List Ev),
    Bounded d ∧
    let s := run d box tiles start es
    s.hoverDirty = false ∧ d.sensitive 1 = true ∧ s.cache 1 = some true ∧ 1 ∉ chain d s.leaf := by
  refine ⟨page, onePage, [⟨0, 0, 256, 256⟩],
    [.rebuild [0, 1, 2, 3], .move (some 2) (some 2), .repaint [0, 1, 2, 3], .move (some 3) (some 3),
     .move (some 0) (some 0), .repaint [0, 1, 2, 3]], page_bounded, ?_⟩
  exact ⟨by decide, by decide, by decide, by decide⟩

/-- **C128 is violated**: only tiles that the boxes of the old and the new innermost element touch are
redrawn. A rule for an element above them, whose box reaches further, leaves the rest of its tiles as
they were: half of a hovered menu entry has the new colour. -/
theorem C128_region_violated : ∃ (d : Doc) (box : Nat → Option Rect) (tiles : List Rect) (tile : Rect),
    Bounded d ∧
    let s := (updateHover d start (some 2) (some 2)).1
    d.sensitive 1 = true ∧ 1 ∈ chain d s.leaf ∧ tile ∈ tiles ∧
    (∃ r, box 1 = some r ∧ overlaps tile r = true) ∧ tile ∉ redrawn box tiles s := by
  refine ⟨page, fun n => if n = 1 then some ⟨0, 0, 500, 20⟩ else some ⟨0, 0, 50, 20⟩,
    [⟨0, 0, 256, 256⟩, ⟨256, 0, 256, 256⟩], ⟨256, 0, 256, 256⟩, page_bounded, by decide, by decide, by decide,
    ⟨_, rfl, by decide⟩, by decide⟩

end Verif.Interact
