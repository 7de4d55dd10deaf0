import Mathlib.Tactic.Ring
import Verif.Layers.Props

/-!
# C57, C70, C72: hit testing, sticky and fixed elements
-/
namespace Verif.Layers
open Verif.Map

/-! ## C57 -/

theorem boxHit_iff (r : Rect) (x y : ℚ) :
    boxHit r x y = true ↔ r.x ≤ x ∧ x < r.x + r.width ∧ r.y ≤ y ∧ y < r.y + r.height := by
  unfold boxHit
  simp only [Bool.and_eq_true, decide_eq_true_eq]
  tauto

theorem layerPoint_hit (a : Anchor) (r : Rect) (vx vy sx sy : ℚ) :
    boxHit r (layerPoint a vx vy sx sy).1 (layerPoint a vx vy sx sy).2 = true ↔
      (anchoredPos r.x r.y sx sy a).1 ≤ vx ∧ vx < (anchoredPos r.x r.y sx sy a).1 + r.width ∧
      (anchoredPos r.x r.y sx sy a).2 ≤ vy ∧ vy < (anchoredPos r.x r.y sx sy a).2 + r.height := by
  rw [boxHit_iff]
  cases a with
  | fixed => rfl
  | scroll =>
    simp only [layerPoint, anchoredPos]
    constructor
    · rintro ⟨h1, h2, h3, h4⟩
      exact ⟨by linarith, by linarith, by linarith, by linarith⟩
    · rintro ⟨h1, h2, h3, h4⟩
      exact ⟨by linarith, by linarith, by linarith, by linarith⟩
  | sticky c =>
    simp only [layerPoint, anchoredPos]
    generalize (c.offset sx sy).1 = p
    generalize (c.offset sx sy).2 = q
    constructor
    · rintro ⟨h1, h2, h3, h4⟩
      exact ⟨by linarith, by linarith, by linarith, by linarith⟩
    · rintro ⟨h1, h2, h3, h4⟩
      exact ⟨by linarith, by linarith, by linarith, by linarith⟩

/-- The last of a list that passes a test, if one does. -/
def FoundLast {α : Type} (p : α → Prop) (l : List α) : Option α → Prop
  | none => ∀ a ∈ l, ¬ p a
  | some a => ∃ before after, l = before ++ a :: after ∧ p a ∧ ∀ b ∈ after, ¬ p b

theorem FoundLast.append_left {α : Type} {p : α → Prop} {l r : List α} {x : Option α} (h : FoundLast p l x)
    (hr : ∀ a ∈ r, ¬ p a) : FoundLast p (l ++ r) x := by
  cases x with
  | none =>
    intro a ha
    rcases List.mem_append.mp ha with ha | ha
    · exact h a ha
    · exact hr a ha
  | some x =>
    obtain ⟨b, c, h0, h1, h2⟩ := h
    refine ⟨b, c ++ r, by rw [h0]; simp, h1, ?_⟩
    intro b hb
    rcases List.mem_append.mp hb with hb | hb
    · exact h2 b hb
    · exact hr b hb

theorem FoundLast.append_right {α : Type} {p : α → Prop} {l r : List α} {a : α} (h : FoundLast p r (some a)) :
    FoundLast p (l ++ r) (some a) := by
  obtain ⟨b, c, h0, h1, h2⟩ := h
  exact ⟨l ++ b, c, by rw [h0]; simp, h1, h2⟩

theorem hitElements_spec (node : Nat → Option Elem) (a : Anchor) (vx vy sx sy : ℚ) (els : List Nat) :
    (hitElements node (layerPoint a vx vy sx sy).1 (layerPoint a vx vy sx sy).2 els.reverse = none ∧
      ∀ p ∈ els.map (fun i => (a, i)), ¬ Covers node vx vy sx sy p) ∨
    ∃ i, hitElements node (layerPoint a vx vy sx sy).1 (layerPoint a vx vy sx sy).2 els.reverse = some i ∧
      FoundLast (Covers node vx vy sx sy) (els.map fun i => (a, i)) (some (a, i)) := by
  induction els using List.reverseRecOn with
  | nil => left; simp [hitElements]
  | append_singleton els i ih =>
    rw [List.reverse_append, List.reverse_singleton, List.singleton_append]
    have hcov : ∀ b, hitElements node (layerPoint a vx vy sx sy).1 (layerPoint a vx vy sx sy).2 (i :: els.reverse) = b →
        (Covers node vx vy sx sy (a, i) ∧ b = some i) ∨ (¬ Covers node vx vy sx sy (a, i) ∧
          hitElements node (layerPoint a vx vy sx sy).1 (layerPoint a vx vy sx sy).2 els.reverse = b) := by
      intro b hb
      rw [hitElements] at hb
      cases hn : node i with
      | none =>
        rw [hn] at hb
        exact Or.inr ⟨by simp [Covers, hn], hb⟩
      | some e =>
        rw [hn] at hb
        simp only at hb
        have hh := layerPoint_hit a e.margin vx vy sx sy
        split at hb
        · rename_i hbox
          exact Or.inl ⟨⟨e, hn, hh.mp hbox⟩, hb.symm⟩
        · rename_i hbox
          refine Or.inr ⟨?_, hb⟩
          rintro ⟨e', he', h'⟩
          rw [hn] at he'
          cases he'
          exact hbox (hh.mpr h')
    rcases hcov _ rfl with ⟨h1, h2⟩ | ⟨h1, h2⟩
    · right
      refine ⟨i, h2, ?_⟩
      exact ⟨els.map fun i => (a, i), [], by simp, h1, by simp⟩
    · rw [← h2]
      rcases ih with ⟨h3, h4⟩ | ⟨j, h3, h4⟩
      · left
        refine ⟨h3, ?_⟩
        intro p hp
        rw [List.map_append, List.mem_append] at hp
        rcases hp with hp | hp
        · exact h4 p hp
        · simp only [List.map_cons, List.map_nil, List.mem_singleton] at hp
          rw [hp]; exact h1
      · right
        refine ⟨j, h3, ?_⟩
        rw [List.map_append]
        exact h4.append_left (by simpa using h1)

/-- The painted elements of some numbers. -/
def paintedOf (layers : List (Nat × Layer)) (ids : List Nat) : List (Anchor × Nat) :=
  (ids.filterMap (look layers)).flatMap fun l => l.elements.map fun i => (l.anchor, i)

theorem hitLayers_spec (node : Nat → Option Elem) (layers : List (Nat × Layer)) (vx vy sx sy : ℚ) (ids : List Nat) :
    (hitLayers node layers vx vy sx sy ids.reverse = none ∧
      FoundLast (Covers node vx vy sx sy) (paintedOf layers ids) none) ∨
    ∃ a i, hitLayers node layers vx vy sx sy ids.reverse = some i ∧
      FoundLast (Covers node vx vy sx sy) (paintedOf layers ids) (some (a, i)) := by
  induction ids using List.reverseRecOn with
  | nil => left; exact ⟨rfl, by simp [paintedOf, FoundLast]⟩
  | append_singleton ids k ih =>
    rw [List.reverse_append, List.reverse_singleton, List.singleton_append, hitLayers]
    have hsplit : paintedOf layers (ids ++ [k]) = paintedOf layers ids ++ paintedOf layers [k] := by
      simp [paintedOf, List.filterMap_append]
    rw [hsplit]
    cases hk : look layers k with
    | none =>
      have : paintedOf layers [k] = [] := by simp [paintedOf, hk]
      rw [this, List.append_nil]
      exact ih
    | some l =>
      have hp : paintedOf layers [k] = l.elements.map fun i => (l.anchor, i) := by simp [paintedOf, hk]
      rw [hp]
      simp only
      rcases hitElements_spec node l.anchor vx vy sx sy l.elements with ⟨h1, h2⟩ | ⟨i, h1, h2⟩
      · rw [h1]
        simp only
        rcases ih with ⟨h3, h4⟩ | ⟨a, i, h3, h4⟩
        · exact Or.inl ⟨h3, h4.append_left h2⟩
        · exact Or.inr ⟨a, i, h3, h4.append_left h2⟩
      · rw [h1]
        exact Or.inr ⟨l.anchor, i, rfl, h2.append_right⟩

/-- **C57**: the element found at a point of the viewport is the last, in the order of painting, whose box
covers the point where the compositor draws it; none is found only if none does. -/
theorem C57_topmost (s : State) (node : Nat → Option Elem) (vx vy sx sy : ℚ) :
    (findElementAt s node vx vy sx sy = none ∧ ∀ p ∈ painted s, ¬ Covers node vx vy sx sy p) ∨
    ∃ a i before after, findElementAt s node vx vy sx sy = some i ∧ painted s = before ++ (a, i) :: after ∧
      Covers node vx vy sx sy (a, i) ∧ ∀ p ∈ after, ¬ Covers node vx vy sx sy p := by
  rcases hitLayers_spec node s.layers vx vy sx sy s.ids with ⟨h1, h2⟩ | ⟨a, i, h1, h2⟩
  · exact Or.inl ⟨h1, h2⟩
  · obtain ⟨b, c, h3, h4, h5⟩ := h2
    exact Or.inr ⟨a, i, b, c, h1, h3, h4, h5⟩

/-- The element of a tree with a given id. -/
def nodeOf (t : LTree) (i : Nat) : Option Elem := ((elems t).find? fun o => o.self.id = i).map Occ.self

/-- Scrolled by 100 the fixed header is found where it is seen, and the note where it went. -/
example : findElementAt (generateLayers page) (nodeOf page) 15 15 0 100 = some 3 ∧
    findElementAt (generateLayers page) (nodeOf page) 300 70 0 100 = some 5 ∧
    findElementAt (generateLayers page) (nodeOf page) 300 170 0 0 = some 5 ∧
    findElementAt (generateLayers page) (nodeOf page) 900 15 0 0 = none := by decide +kernel

/-! ## C70 -/

/-- One axis of a sticky element: it starts at `natural`, is `size` long, should stay `inset` from the edge of
the viewport, and its container ends at `cageEnd`; the page is scrolled by `scroll`, and the element is seen at
`seen` from the edge of the viewport. -/
structure StickyAxis (inset natural size cageEnd scroll seen : ℚ) : Prop where
  /-- it is never drawn before its place in the flow -/
  forward : natural - scroll ≤ seen
  /-- away from the edge it stays in the flow -/
  flow : inset ≤ natural - scroll → seen = natural - scroll
  /-- with room in the container it stops at the inset -/
  stuck : natural - scroll ≤ inset → inset + size ≤ cageEnd - scroll → seen = inset
  /-- without room, its end stays at the end of the container -/
  shoved : natural - scroll ≤ inset → cageEnd - scroll ≤ inset + size → natural + size ≤ cageEnd →
    seen + size = cageEnd - scroll
  /-- it never leaves the container it was in -/
  inside : natural + size ≤ cageEnd → seen + size ≤ cageEnd - scroll

theorem stickyAxis (inset natural size cage cageSize scroll : ℚ) :
    StickyAxis inset natural size (cage + cageSize) scroll
      (natural - scroll + Sticky.axis (some inset) natural size cage cageSize scroll) := by
  have hdef : Sticky.axis (some inset) natural size cage cageSize scroll =
      min (max (inset - (natural - scroll)) 0) (max ((cage + cageSize) - (natural + size)) 0) := rfl
  rw [hdef]
  have h0 : 0 ≤ min (max (inset - (natural - scroll)) 0) (max ((cage + cageSize) - (natural + size)) 0) :=
    le_min (le_max_right _ _) (le_max_right _ _)
  constructor
  · linarith
  · intro h
    rw [max_eq_right (a := inset - (natural - scroll)) (by linarith), min_eq_left (le_max_right _ _)]
    ring
  · intro h1 h2
    rw [max_eq_left (a := inset - (natural - scroll)) (by linarith),
      min_eq_left (le_trans (by linarith) (le_max_left _ _))]
    ring
  · intro h1 h2 h3
    rw [max_eq_left (a := inset - (natural - scroll)) (by linarith),
      max_eq_left (a := cage + cageSize - (natural + size)) (by linarith), min_eq_right (by linarith)]
    ring
  · intro h
    have := min_le_right (max (inset - (natural - scroll)) 0) (max ((cage + cageSize) - (natural + size)) 0)
    have h2 : max (cage + cageSize - (natural + size)) 0 = cage + cageSize - (natural + size) := max_eq_left (by linarith)
    generalize min (max (inset - (natural - scroll)) 0) (max (cage + cageSize - (natural + size)) 0) = m at this ⊢
    linarith

/-- **C70**: a sticky element of a page is in a layer that moves as `StickyAxis` says on each axis that has an inset,
against the content box of its parent, and with the flow on an axis that has none. -/
theorem C70_sticky (t : LTree) (hn : (docOrder t).Nodup) (o : Occ) (ho : o ∈ elems t) (hp : o.self.position = .sticky)
    (l : Layer) (hl : l ∈ paintLayers (generateLayers t)) (hi : o.self.id ∈ l.elements) (cage : Rect)
    (hc : o.self.cage = some cage) (sx sy : ℚ) :
    (∀ top, o.self.insetTop = some top → StickyAxis top o.self.margin.y o.self.margin.height (cage.y + cage.height) sy
      (anchoredPos o.self.margin.x o.self.margin.y sx sy l.anchor).2) ∧
    (o.self.insetTop = none → (anchoredPos o.self.margin.x o.self.margin.y sx sy l.anchor).2 = o.self.margin.y - sy) ∧
    (∀ left, o.self.insetLeft = some left → StickyAxis left o.self.margin.x o.self.margin.width (cage.x + cage.width) sx
      (anchoredPos o.self.margin.x o.self.margin.y sx sy l.anchor).1) ∧
    (o.self.insetLeft = none → (anchoredPos o.self.margin.x o.self.margin.y sx sy l.anchor).1 = o.self.margin.x - sx) := by
  have hs : Starts o := Or.inl (Or.inl (Or.inr (Or.inr hp)))
  have hlead : leader o = some o.self := by rw [leader, if_pos hs]
  have ha : l.anchor = .sticky ⟨o.self.insetTop, o.self.insetLeft, o.self.margin, cage⟩ := by
    rcases layer_desc t hn o ho l hl hi with ⟨h1, _⟩ | ⟨x, r, h1, -, hd⟩
    · rw [hlead] at h1; simp at h1
    · rw [hlead] at h1
      simp only [Option.some.injEq] at h1
      subst h1
      rw [show l.anchor = anchorSpec o.self from congrArg Desc.anchor hd, anchorSpec, if_pos hp, hc]
      rfl
  rw [ha]
  simp only [anchoredPos, Sticky.offset]
  refine ⟨?_, ?_, ?_, ?_⟩
  · intro top h; rw [h]; exact stickyAxis _ _ _ _ _ _
  · intro h; rw [h]; simp [Sticky.axis]
  · intro left h; rw [h]; exact stickyAxis _ _ _ _ _ _
  · intro h; rw [h]; simp [Sticky.axis]

/-- **C70**: an element that shares the layer of a sticky one moves with it. -/
theorem C70_rigid (c : Sticky) (x y x' y' sx sy : ℚ) :
    (anchoredPos x y sx sy (.sticky c)).1 - (anchoredPos x' y' sx sy (.sticky c)).1 = x - x' ∧
    (anchoredPos x y sx sy (.sticky c)).2 - (anchoredPos x' y' sx sy (.sticky c)).2 = y - y' := by
  simp only [anchoredPos]
  constructor <;> ring

/-- A section with a sticky heading. -/
def stickyPage : LTree :=
  .node (box 1 0 0 800 2000) [
    .node (box 2 0 100 800 400) [
      .node { box 3 0 100 800 50 with position := .sticky, insetTop := some 10, cage := some ⟨0, 100, 800, 400⟩ } [
        .node (box 4 5 110 100 20) []],
      .node (box 5 0 150 800 350) []]]

/-- Flowing, stuck and shoved. -/
example : ((paintLayers (generateLayers stickyPage)).filter fun l => l.elements.contains 3).map
    (fun l => [anchoredPos 0 100 0 50 l.anchor, anchoredPos 0 100 0 200 l.anchor, anchoredPos 0 100 0 470 l.anchor,
      anchoredPos 5 110 0 200 l.anchor]) = [[(0, 50), (0, 10), (0, -20), (5, 20)]] := by decide +kernel

/-! ## C72 -/

/-- **C72** (partial): a `fixed` element, and everything in it that does not start a layer of its own, is
drawn at the same place of the viewport whatever the scroll.  Missing: see `C72_violated`. -/
theorem C72_fixed_partial (t : LTree) (hn : (docOrder t).Nodup) (o : Occ) (ho : o ∈ elems t) (x : Elem)
    (hx : leader o = some x) (hf : x.position = .fixed)
    (l : Layer) (hl : l ∈ paintLayers (generateLayers t)) (hi : o.self.id ∈ l.elements) (px py sx sy : ℚ) :
    anchoredPos px py sx sy l.anchor = (px, py) := by
  rcases layer_desc t hn o ho l hl hi with ⟨h1, _⟩ | ⟨y, r, h1, -, hd⟩
  · rw [hx] at h1; simp at h1
  · rw [hx] at h1
    simp only [Option.some.injEq] at h1
    subst h1
    rw [show l.anchor = anchorSpec x from congrArg Desc.anchor hd, anchorSpec, hf]
    rfl

example : leader ⟨box 3 10 10 100 20, [{ box 2 0 0 800 50 with position := .fixed }, box 1 0 0 800 2000]⟩ =
    some { box 2 0 0 800 50 with position := .fixed } := by decide +kernel

/-- A fixed header with a translucent logo. -/
def headerPage : LTree :=
  .node (box 1 0 0 800 2000) [
    .node { box 2 0 0 800 50 with position := .fixed } [.node { box 3 10 10 30 30 with opacity := 1/2 } []]]

/-- **C72 is violated**: a translucent element in a `fixed` one scrolls away from it. -/
theorem C72_violated : ∃ t : LTree, (docOrder t).Nodup ∧ ∃ o ∈ elems t, ∃ a ∈ o.ancestors, a.position = .fixed ∧
    ∃ l ∈ paintLayers (generateLayers t), o.self.id ∈ l.elements ∧ ∃ sy,
      anchoredPos o.self.margin.x o.self.margin.y 0 sy l.anchor ≠
        anchoredPos o.self.margin.x o.self.margin.y 0 0 l.anchor := by
  refine ⟨headerPage, by decide +kernel, ⟨{ box 3 10 10 30 30 with opacity := 1/2 },
    [{ box 2 0 0 800 50 with position := .fixed }, box 1 0 0 800 2000]⟩, by decide +kernel,
    { box 2 0 0 800 50 with position := .fixed }, by simp, rfl, ⟨2, 0, 1/2, .scroll, [3]⟩, by decide +kernel,
    by decide +kernel, 100, by decide +kernel⟩

end Verif.Layers
