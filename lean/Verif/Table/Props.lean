import Verif.Table.Lemmas

set_option linter.unusedVariables false
namespace Verif.Table
variable {N : Type}

/-! ## C52 -/

/-- **C52.** Every source cell is placed, in order, in its own row, with its spans: at least one, and
the row span cut at the end of the section. -/
theorem C52_all_placed (rows : List (Row N)) :
    (buildSectionGrid rows).cells.map (fun p => (p.node, p.row, p.colspan, p.rowspan)) =
      (sourceCells rows).map fun s =>
        (s.1.node, s.2, max s.1.colspan 1, min (max s.1.rowspan 1) (rows.length - s.2)) := by
  have := placeRows_shape rows.length rows 0 []
  exact this

theorem row_lt {rows : List (Row N)} {p : Placed N} (h : p ∈ (buildSectionGrid rows).cells) :
    p.row < rows.length ∧ 1 ≤ p.colspan ∧ 1 ≤ p.rowspan ∧ p.row + p.rowspan ≤ rows.length := by
  have hm : (p.node, p.row, p.colspan, p.rowspan) ∈
      (buildSectionGrid rows).cells.map (fun p => (p.node, p.row, p.colspan, p.rowspan)) :=
    List.mem_map_of_mem (f := fun p : Placed N => (p.node, p.row, p.colspan, p.rowspan)) h
  rw [C52_all_placed] at hm
  obtain ⟨s, hs, e⟩ := List.mem_map.1 hm
  simp only [Prod.mk.injEq] at e
  obtain ⟨_, e2, e3, e4⟩ := e
  have : s.2 < rows.length := by
    unfold sourceCells at hs
    obtain ⟨⟨q, i⟩, hq, hs⟩ := List.mem_flatMap.1 hs
    obtain ⟨x, _, rfl⟩ := List.mem_map.1 hs
    have := List.mem_zipIdx hq
    simp at this ⊢; omega
  omega

/-- **C52.** Every cell lies inside the grid, and the grid is no wider than the cells need. -/
theorem C52_inside (rows : List (Row N)) :
    (buildSectionGrid rows).nRows = rows.length ∧
    (∀ p ∈ (buildSectionGrid rows).cells, 1 ≤ p.colspan ∧ 1 ≤ p.rowspan ∧
      p.col + p.colspan ≤ (buildSectionGrid rows).nCols ∧ p.row + p.rowspan ≤ (buildSectionGrid rows).nRows) ∧
    ∀ m, (∀ p ∈ (buildSectionGrid rows).cells, p.col + p.colspan ≤ m) → (buildSectionGrid rows).nCols ≤ m := by
  refine ⟨rfl, ?_, ?_⟩
  · intro p hp
    obtain ⟨h1, h2, h3, h4⟩ := row_lt hp
    exact ⟨h2, h3, (grid_good rows).2 p hp, h4⟩
  · intro m hm
    exact placeRows_len rows.length rows 0 [] m (by simp) hm

/-- **C52.** Each cell stands after the earlier cells of its row, and skips only columns that earlier
cells occupy. -/
theorem C52_first_gap (rows : List (Row N)) (pre post : List (Placed N)) (q : Placed N)
    (h : (buildSectionGrid rows).cells = pre ++ q :: post) : NextGap pre q := by
  have := ((grid_good rows).1 pre q post h).2.1
  simpa using this

theorem pairwise_of_splits {α : Type} {R : α → α → Prop} (l : List α)
    (h : ∀ pre q post, l = pre ++ q :: post → pre.Pairwise R → ∀ p ∈ pre, R p q) : l.Pairwise R := by
  have key : ∀ (post pre : List α), l = pre ++ post → pre.Pairwise R → l.Pairwise R := by
    intro post
    induction post with
    | nil => intro pre e hp; rw [e]; simpa using hp
    | cons q t ih =>
      intro pre e hp
      refine ih (pre ++ [q]) (by simp [e]) ?_
      rw [List.pairwise_append]
      refine ⟨hp, by simp, ?_⟩
      intro a ha b hb
      simp only [List.mem_singleton] at hb
      subst hb
      exact h pre b t e hp a ha
  exact key l [] rfl List.Pairwise.nil

/-- **C52.** Two cells of one row never share a slot, whatever their spans. -/
theorem C52_same_row (rows : List (Row N)) :
    (buildSectionGrid rows).cells.Pairwise (fun p q => p.row = q.row → ¬ Overlap p q) := by
  refine pairwise_of_splits _ ?_
  intro pre q post e _ p hp hr ⟨r, c, h1, h2⟩
  have hg := (C52_first_gap rows pre post q e).1
  have := le_rowEnd hp
  rw [hr] at this
  have a := h1.2.2.2
  have b := h2.2.2.1
  omega

/-- **C52**, the part that holds.  Cells can only come to share a slot through a cell several
columns wide: if no such cell lies on an earlier one, no two cells of the section do. -/
theorem C52_disjoint_partial (rows : List (Row N))
    (h : (buildSectionGrid rows).cells.Pairwise (fun p q => 2 ≤ q.colspan → ¬ Overlap p q)) :
    (buildSectionGrid rows).cells.Pairwise (fun p q => ¬ Overlap p q) := by
  refine pairwise_of_splits _ ?_
  intro pre q post e hd p hp
  have hg := (grid_good rows).1 pre q post e
  simp only [List.nil_append] at hg
  obtain ⟨g1, _, g3⟩ := hg
  by_cases hw : 2 ≤ q.colspan
  · rw [e, List.pairwise_append] at h
    exact h.2.2 p hp q (by simp) hw
  · rintro ⟨r, c, h1, h2⟩
    have hr := g1 p hp
    refine g3 hd p hp ?_
    obtain ⟨a1, a2, a3, a4⟩ := h1
    obtain ⟨b1, b2, b3, b4⟩ := h2
    have : c = q.col := by omega
    subst this
    exact ⟨hr, by omega, a3, a4⟩

/-- **C52**, consequence: in a section whose cells span no columns, or whose cells span no rows, no
two cells share a slot, and each cell stands in the first free slot after the previous cell of its
row. -/
theorem C52_simple_spans_partial (rows : List (Row N))
    (h : (∀ r ∈ rows, ∀ s ∈ r.cells, s.colspan ≤ 1) ∨ (∀ r ∈ rows, ∀ s ∈ r.cells, s.rowspan ≤ 1)) :
    (buildSectionGrid rows).cells.Pairwise (fun p q => ¬ Overlap p q) ∧
    ∀ pre q post, (buildSectionGrid rows).cells = pre ++ q :: post → ∀ p ∈ pre, ¬ Covers p q.row q.col := by
  have hsrc : ∀ p ∈ (buildSectionGrid rows).cells, ∃ r ∈ rows, ∃ s ∈ r.cells,
      p.colspan = max s.colspan 1 ∧ p.rowspan ≤ max s.rowspan 1 := by
    intro p hp
    have hm : (p.node, p.row, p.colspan, p.rowspan) ∈
        (buildSectionGrid rows).cells.map (fun p => (p.node, p.row, p.colspan, p.rowspan)) :=
      List.mem_map_of_mem (f := fun p : Placed N => (p.node, p.row, p.colspan, p.rowspan)) hp
    rw [C52_all_placed] at hm
    obtain ⟨s, hs, e⟩ := List.mem_map.1 hm
    simp only [Prod.mk.injEq] at e
    unfold sourceCells at hs
    obtain ⟨⟨q, i⟩, hq, hs⟩ := List.mem_flatMap.1 hs
    obtain ⟨x, hx, rfl⟩ := List.mem_map.1 hs
    have hq := (List.mem_zipIdx' hq).2
    simp only at hq e
    refine ⟨q, by rw [hq]; exact List.getElem_mem _, x, hx, by omega, by omega⟩
  have hd : (buildSectionGrid rows).cells.Pairwise (fun p q => ¬ Overlap p q) := by
    apply C52_disjoint_partial
    rcases h with h | h
    · refine List.Pairwise.imp_of_mem (R := fun _ _ => True) ?_ (List.pairwise_of_forall (by simp))
      intro p q hp hq _ hw
      obtain ⟨r, hr, s, hs, e, _⟩ := hsrc q hq
      have := h r hr s hs
      omega
    · refine List.Pairwise.imp_of_mem ?_ (C52_same_row rows)
      intro p q hp hq himp hw ⟨r, c, h1, h2⟩
      obtain ⟨r1, hr1, s1, hs1, _, e1⟩ := hsrc p hp
      obtain ⟨r2, hr2, s2, hs2, _, e2⟩ := hsrc q hq
      have k1 := h r1 hr1 s1 hs1
      have k2 := h r2 hr2 s2 hs2
      refine himp ?_ ⟨r, c, h1, h2⟩
      have := h1.1; have := h1.2.1; have := h2.1; have := h2.2.1
      omega
  refine ⟨hd, ?_⟩
  intro pre q post e
  have hg := ((grid_good rows).1 pre q post e).2.2
  simp only [List.nil_append] at hg
  refine hg ?_
  rw [e, List.pairwise_append] at hd
  exact hd.1

/-- rows `A B↓` and `C C`: `C`, two columns wide, is laid over `B`, two rows tall -/
def overlapRows : List (Row Nat) := [⟨none, [⟨1, 1, 1⟩, ⟨2, 1, 2⟩]⟩, ⟨none, [⟨3, 2, 1⟩]⟩]

/-- **C52** fails: a wide cell is put over a cell that spans rows from above. -/
theorem C52_violated : ¬ (∀ rows : List (Row Nat),
    (buildSectionGrid rows).cells.Pairwise (fun p q => ¬ Overlap p q)) := by
  intro h
  have := h overlapRows
  have e : (buildSectionGrid overlapRows).cells = [⟨1, 0, 0, 1, 1⟩, ⟨2, 0, 1, 1, 2⟩, ⟨3, 1, 0, 2, 1⟩] := by
    decide
  rw [e, List.pairwise_cons, List.pairwise_cons] at this
  exact this.2.1 ⟨3, 1, 0, 2, 1⟩ (by simp) ⟨1, 1, by simp [Covers], by simp [Covers]⟩

/-- a span forgotten: cell 2 spans three rows, the wide cell 3 is laid over it, and after that cell 5,
one column wide, is put on it too -/
example : (buildSectionGrid (N := Nat)
    [⟨none, [⟨1, 1, 1⟩, ⟨2, 1, 3⟩]⟩, ⟨none, [⟨3, 2, 1⟩]⟩, ⟨none, [⟨4, 1, 1⟩, ⟨5, 1, 1⟩]⟩]).cells =
    [⟨1, 0, 0, 1, 1⟩, ⟨2, 0, 1, 1, 3⟩, ⟨3, 1, 0, 2, 1⟩, ⟨4, 2, 0, 1, 1⟩, ⟨5, 2, 1, 1, 1⟩] := by decide

/-- a section with both kinds of span whose wide cells lie on nothing -/
example : (buildSectionGrid (N := Nat)
    [⟨none, [⟨1, 2, 1⟩, ⟨2, 1, 2⟩]⟩, ⟨none, [⟨3, 1, 1⟩, ⟨4, 1, 9⟩, ⟨5, 1, 0⟩]⟩]).cells =
    [⟨1, 0, 0, 2, 1⟩, ⟨2, 0, 2, 1, 2⟩, ⟨3, 1, 0, 1, 1⟩, ⟨4, 1, 1, 1, 1⟩, ⟨5, 1, 3, 1, 1⟩] := by decide

example : ∃ rows : List (Row Nat), rows.length = 2 ∧
    (∃ p ∈ (buildSectionGrid rows).cells, 2 ≤ p.rowspan) ∧
    (∀ r ∈ rows, ∀ s ∈ r.cells, s.colspan ≤ 1) :=
  ⟨[⟨none, [⟨1, 1, 2⟩, ⟨2, 1, 1⟩]⟩, ⟨none, [⟨3, 1, 1⟩]⟩], rfl,
    ⟨⟨1, 0, 0, 1, 2⟩, by decide, by decide⟩, by decide⟩

end Verif.Table
