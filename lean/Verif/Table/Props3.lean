import Verif.Table.Lemmas4

set_option linter.unusedVariables false
namespace Verif.Table
variable {N : Type}

/-- the layout given to a cell -/
theorem cell_call (t : Tree N) (table : N) (available : ℚ) (s : Setting t table available)
    (G : Group N) (hG : G ∈ (buildModel t table).groups) (p : Placed N) (hp : p ∈ (buildSectionGrid G.rows).cells) :
    (p.node, placeCell t p (rowHeights t (buildSectionGrid G.rows) s.widths) (colXOffsets s.widths s.sx)
      s.widths s.sx s.sy) ∈ (computeTableLayout t table available).calls := by
  obtain ⟨pre, post, e⟩ := List.append_of_mem hG
  have hlt : p.row < G.rows.length := (row_lt hp).1
  have hR : G.rows[p.row]? = some G.rows[p.row] := List.getElem?_eq_getElem hlt
  have hpr : p ∈ (buildSectionGrid G.rows).cellsInRow p.row := by simp [Grid.cellsInRow, hp]
  have hne : (computeTableLayout t table available).calls ≠ [] := by
    rw [C67_laid_out]
    refine ⟨G, hG, _, List.mem_of_getElem? hR, ?_⟩
    intro e
    have := cellsInRow_nodes G.rows p.row _ hR
    rw [e, List.map_nil, List.map_eq_nil_iff] at this
    rw [this] at hpr; simp at hpr
  obtain ⟨hc, _⟩ := compute_calls t table available s hne
  have hrow := placeRowsLayout_mem t (buildSectionGrid G.rows) (rowHeights t (buildSectionGrid G.rows) s.widths)
    (colXOffsets s.widths s.sx) s.widths s.sx s.sy G.rows 0 p.row _ hR
  rw [Nat.zero_add] at hrow
  have hm := (placeGroups_mem t (colXOffsets s.widths s.sx) s.widths s.n s.sx s.sy pre G post s.sy).2 _ (hrow.2 p hpr)
  rw [hc, e]; exact hm

theorem in_columns (t : Tree N) (table : N) (available : ℚ) (s : Setting t table available)
    (G : Group N) (hG : G ∈ (buildModel t table).groups) (p : Placed N) (hp : p ∈ (buildSectionGrid G.rows).cells) :
    p.col + p.colspan ≤ s.widths.length := by
  have hwl : s.widths.length = s.n := by rw [s.hw]; exact columnWidths_length _ _ _ _ _
  obtain ⟨_, _, c, _⟩ := (C52_inside G.rows).2.1 p hp
  have := columnCount_ge (gs := (buildModel t table).groups.map fun g => buildSectionGrid g.rows)
      (List.mem_map_of_mem (f := fun g : Group N => buildSectionGrid g.rows) hG)
  have e := s.hn
  omega

/-! ## C53, rows -/

/-- **C53**, the part that holds.  Rows line up in their group: cells that start in the same row start at
the same height, and cells that end in the same row end at the same height. -/
theorem C53_rows_aligned_partial [DecidableEq N] (t : Tree N) (table : N) (available : ℚ)
    (hnd : (partsOfTable t table).Nodup) (G : Group N) (hG : G ∈ (buildModel t table).groups)
    (g r r' : N) (hg : G.node = some g) (p q : Placed N)
    (hp : p ∈ (buildSectionGrid G.rows).cells) (hq : q ∈ (buildSectionGrid G.rows).cells)
    (R R' : Row N) (hR : G.rows[p.row]? = some R) (hR' : G.rows[q.row]? = some R')
    (hr : R.node = some r) (hr' : R'.node = some r') :
    ∃ a b, boxOf (computeTableLayout t table available).calls [g, r] p.node = some a ∧
      boxOf (computeTableLayout t table available).calls [g, r'] q.node = some b ∧
      (p.row = q.row → a.y = b.y) ∧
      (p.row + p.rowspan = q.row + q.rowspan → a.y + a.height = b.y + b.height) := by
  let s : Setting t table available := ⟨_, _, _, _, rfl, rfl, rfl, rfl⟩
  obtain ⟨pre, post, e⟩ := List.append_of_mem hG
  refine ⟨_, _, cell_box t table available hnd s pre post G e g r hg R p hp hR hr,
    cell_box t table available hnd s pre post G e g r' hg R' q hq hR' hr', ?_, ?_⟩
  · intro h; simp [h]
  · intro h
    obtain ⟨_, b1, _, d1⟩ := (C52_inside G.rows).2.1 p hp
    obtain ⟨_, b2, _, d2⟩ := (C52_inside G.rows).2.1 q hq
    rw [← rowHeights_length t (buildSectionGrid G.rows) s.widths] at d1 d2
    have e1 := far_edge s.sy 0 _ p.row p.rowspan b1 d1
    have e2 := far_edge s.sy 0 _ q.row q.rowspan b2 d2
    rw [h] at e1
    have : (p.row : ℚ) + p.rowspan = q.row + q.rowspan := by exact_mod_cast h
    rw [this] at e1
    simp only [rowYOffsets]
    linarith

theorem withAnonGroup_named (gs : List (Group N)) (f : List (Row N) → List (Row N)) :
    (withAnonGroup gs f).filterMap Group.node = gs.filterMap Group.node := by
  unfold withAnonGroup
  split
  · next g hg =>
    obtain ⟨ys, rfl⟩ := List.getLast?_eq_some_iff.1 hg
    split
    · next hn => simp [List.filterMap_append, hn]
    · simp [List.filterMap_append, List.filterMap_cons]
  · simp [List.filterMap_append]

theorem groups_named (t : Tree N) (table : N) :
    (buildModel t table).groups.filterMap Group.node = sectionOrder t table := by
  have key : ∀ (l : List N) (m : TModel N),
      ((l.foldl (tableChild t) m).header.filterMap Group.node =
        m.header.filterMap Group.node ++ l.filter fun c => t.role c = .headerGroup) ∧
      ((l.foldl (tableChild t) m).body.filterMap Group.node =
        m.body.filterMap Group.node ++ l.filter fun c => t.role c = .rowGroup) ∧
      ((l.foldl (tableChild t) m).footer.filterMap Group.node =
        m.footer.filterMap Group.node ++ l.filter fun c => t.role c = .footerGroup) := by
    intro l
    induction l with
    | nil => simp
    | cons c r ih =>
      intro m
      simp only [List.foldl_cons]
      obtain ⟨h1, h2, h3⟩ := ih (tableChild t m c)
      rw [h1, h2, h3]
      unfold tableChild
      cases hr : t.role c <;> simp [hr, List.filterMap_append, withAnonGroup_named, buildRowGroup]
  obtain ⟨h1, h2, h3⟩ := key (t.children table) ⟨[], [], []⟩
  simp only [List.filterMap_nil, List.nil_append] at h1 h2 h3
  simp only [TModel.groups, List.filterMap_append, buildModel, sectionOrder, h1, h2, h3]

theorem split_filterMap {α β : Type} {f : α → Option β} {l : List α} {pre post : List β} {b : β}
    (h : l.filterMap f = pre ++ b :: post) :
    ∃ p a q, l = p ++ a :: q ∧ f a = some b ∧ p.filterMap f = pre ∧ q.filterMap f = post := by
  obtain ⟨p, q, rfl, h1, h2⟩ := List.filterMap_eq_append_iff.1 h
  obtain ⟨p', a, q', rfl, h3, h4, h5⟩ := List.filterMap_eq_cons_iff.1 h2
  refine ⟨p ++ p', a, q', by simp, h4, ?_, h5⟩
  rw [List.filterMap_append, h1]
  have : p'.filterMap f = [] := by
    rw [List.filterMap_eq_nil_iff]
    exact h3
  rw [this, List.append_nil]

/-- **C53.** The row groups stand on top of each other, one gutter apart: headers first, then bodies,
then footers, each kind in document order, wherever they are written. -/
theorem C53_groups_stacked [DecidableEq N] (t : Tree N) (table : N) (available : ℚ)
    (hnd : (partsOfTable t table).Nodup) (hy : 0 ≤ (t.spacingY table).pxOr 2)
    (hne : (computeTableLayout t table available).calls ≠ [])
    (pre mid post : List N) (g g' : N) (ho : sectionOrder t table = pre ++ g :: (mid ++ g' :: post)) :
    ∃ a b, boxOf (computeTableLayout t table available).calls [] g = some a ∧
      boxOf (computeTableLayout t table available).calls [] g' = some b ∧
      a.y + a.height + (t.spacingY table).pxOr 2 ≤ b.y ∧ a.x = b.x ∧ a.width = b.width := by
  let s : Setting t table available := ⟨_, _, _, _, rfl, rfl, rfl, rfl⟩
  rw [← groups_named] at ho
  obtain ⟨p, G, q, e1, hG, _, hq⟩ := split_filterMap ho
  obtain ⟨p', G', q', rfl, hG', _, _⟩ := split_filterMap hq
  obtain ⟨hc, hh⟩ := compute_calls t table available s hne
  have hnd' : ((computeTableLayout t table available).calls.map Prod.fst).Nodup :=
    (C67_every_part_once t table available hne).nodup_iff.2 hnd
  have hys : 0 ≤ s.sy := hy
  have m1 := (placeGroups_mem t (colXOffsets s.widths s.sx) s.widths s.n s.sx s.sy p G (p' ++ G' :: q') s.sy).1 g hG
  have m2 := (placeGroups_mem t (colXOffsets s.widths s.sx) s.widths s.n s.sx s.sy (p ++ G :: p') G' q' s.sy).1 g' hG'
  rw [← e1, ← hc] at m1
  have e2 : (buildModel t table).groups = (p ++ G :: p') ++ G' :: q' := by rw [e1]; simp
  rw [← e2, ← hc] at m2
  have f1 := find_of_nodup hnd' m1
  have f2 := find_of_nodup hnd' m2
  have ghn : ∀ K : Group N, 0 ≤ groupHeight t s.widths s.sy K := by
    intro K
    unfold groupHeight sectionHeight
    exact add_nonneg (List.sum_nonneg (rowHeights_nonneg t _ _)) (mul_nonneg hys (Nat.cast_nonneg _))
  have hp' : 0 ≤ (p'.map fun g => groupHeight t s.widths s.sy g + s.sy).sum := by
    apply List.sum_nonneg
    intro x hx
    obtain ⟨K, _, rfl⟩ := List.mem_map.1 hx
    exact add_nonneg (ghn K) hys
  have ey : (t.spacingY table).pxOr 2 = s.sy := rfl
  refine ⟨⟨0, groupTop t s.widths s.sy s.sy p, s.widths.sum + ((s.n : ℚ) + 1) * s.sx, groupHeight t s.widths s.sy G⟩,
    ⟨0, groupTop t s.widths s.sy s.sy (p ++ G :: p'), s.widths.sum + ((s.n : ℚ) + 1) * s.sx,
      groupHeight t s.widths s.sy G'⟩, ?_, ?_, ?_, rfl, rfl⟩
  · simp only [boxOf, f1, Option.map_some, List.nil_append, absolute]
    simp
  · simp only [boxOf, f2, Option.map_some, List.nil_append, absolute]
    simp
  · simp only [ey, groupTop, List.map_append, List.map_cons, List.sum_append, List.sum_cons]
    linarith

/-- footer written first, then body, then header: they are stacked the other way round -/
example : sectionOrder (tinyTree (fun n => if n = 0 then [1, 2, 3] else [])
    (fun n => if n = 1 then .footerGroup else if n = 2 then .rowGroup else if n = 3 then .headerGroup else .table)
    (fun _ => none) (fun _ => 10)) 0 = [] ++ 3 :: ([2] ++ 1 :: []) := by decide

/-- **C52.** What is placed comes from the document: each row element of a row group is a row of that
group's grid, with one source cell for each of its cells, carrying the spans of that cell. -/
theorem C52_from_tree (t : Tree N) (table g r : N) (hg : g ∈ sectionOrder t table)
    (hr : r ∈ t.children g) (hrole : t.role r = .row) :
    ∃ G ∈ (buildModel t table).groups, G.node = some g ∧ ∃ R ∈ G.rows, R.node = some r ∧
      R.cells.map (fun s => (s.node, s.colspan, s.rowspan)) =
        (cellsOfRow t r).map fun c => (c, max ((t.colspan c).getD 1) 1, max ((t.rowspan c).getD 1) 1) := by
  have hbuilt : ∀ (l : List N) (m : TModel N), (∀ G ∈ m.groups, ∀ n, G.node = some n → G = buildRowGroup t n) →
      ∀ G ∈ (l.foldl (tableChild t) m).groups, ∀ n, G.node = some n → G = buildRowGroup t n := by
    intro l
    induction l with
    | nil => exact fun m h => h
    | cons c rest ih =>
      intro m h
      rw [List.foldl_cons]
      apply ih
      have hanon : ∀ f, ∀ G ∈ withAnonGroup m.body f, ∀ n, G.node = some n → G = buildRowGroup t n := by
        intro f G hG n hn
        have hb : ∀ K ∈ m.body, ∀ n, K.node = some n → K = buildRowGroup t n :=
          fun K hK => h K (by simp [TModel.groups, hK])
        unfold withAnonGroup at hG
        split at hG
        · next k hk =>
          obtain ⟨ys, e⟩ := List.getLast?_eq_some_iff.1 hk
          split at hG
          · next hkn =>
            rw [e] at hG hb
            simp only [List.dropLast_concat, List.mem_append, List.mem_singleton] at hG
            rcases hG with hG | rfl
            · exact hb G (by simp [hG]) n hn
            · rw [hkn] at hn; simp at hn
          · rcases List.mem_append.1 hG with hG | hG
            · exact hb G hG n hn
            · rw [List.mem_singleton] at hG; subst hG; simp at hn
        · rcases List.mem_append.1 hG with hG | hG
          · exact hb G hG n hn
          · rw [List.mem_singleton] at hG; subst hG; simp at hn
      intro G hG n hn
      unfold tableChild at hG
      cases hrc : t.role c <;> rw [hrc] at hG <;>
        simp only [TModel.groups, List.mem_append, List.mem_singleton] at hG
      case headerGroup | rowGroup | footerGroup =>
        have : G ∈ m.groups ∨ G = buildRowGroup t c := by
          simp only [TModel.groups, List.mem_append]; tauto
        rcases this with hG | rfl
        · exact h G hG n hn
        · simp only [buildRowGroup, Option.some.injEq] at hn; subst hn; rfl
      case row | cell =>
        rcases hG with (hG | hG) | hG
        · exact h G (by simp [TModel.groups, hG]) n hn
        · exact hanon _ G hG n hn
        · exact h G (by simp [TModel.groups, hG]) n hn
      all_goals exact h G (by simpa [TModel.groups, or_assoc] using hG) n hn
  rw [← groups_named] at hg
  obtain ⟨G, hG, hn⟩ := List.mem_filterMap.1 hg
  have hGe := hbuilt (t.children table) ⟨[], [], []⟩ (by simp [TModel.groups]) G hG g hn
  have keep : ∀ (l : List N) (rows : List (Row N)) (R : Row N) (n : N), R.node = some n → R ∈ rows →
      R ∈ l.foldl (groupChild t) rows := by
    intro l
    induction l with
    | nil => intro rows R n _ h; exact h
    | cons c rest ih =>
      intro rows R n hn h
      rw [List.foldl_cons]
      apply ih _ _ n hn
      unfold groupChild
      split
      · simp [h]
      · unfold pushAnonCell
        split
        · next k hk =>
          obtain ⟨ys, rfl⟩ := List.getLast?_eq_some_iff.1 hk
          split
          · next hkn =>
            simp only [List.dropLast_concat, List.mem_append, List.mem_singleton] at h ⊢
            rcases h with h | rfl
            · exact Or.inl h
            · rw [hkn] at hn; simp at hn
          · exact List.mem_append_left _ h
        · exact List.mem_append_left _ h
      · exact h
  have rowIn : ∀ (l : List N) (rows : List (Row N)), r ∈ l → buildRow t r ∈ l.foldl (groupChild t) rows := by
    intro l
    induction l with
    | nil => intro rows h; simp at h
    | cons c rest ih =>
      intro rows h
      rw [List.foldl_cons]
      rcases List.mem_cons.1 h with rfl | h
      · apply keep _ _ _ r rfl
        unfold groupChild
        rw [hrole]
        simp
      · exact ih _ h
  refine ⟨G, hG, hn, buildRow t r, ?_, rfl, ?_⟩
  · rw [hGe]; exact rowIn _ _ hr
  · simp [buildRow, cellsOfRow, buildSourceCell, Function.comp_def]

/-! ## C65 -/

/-- **C65**, the part that holds.  A cell standing in one row and one column gets a box tall enough for
its content, laid out in the width of that box inside border and padding, and for its `height`. -/
theorem C65_tall_enough_partial (t : Tree N) (table : N) (available : ℚ)
    (G : Group N) (hG : G ∈ (buildModel t table).groups) (p : Placed N) (hp : p ∈ (buildSectionGrid G.rows).cells)
    (h1 : p.rowspan = 1) (hc1 : p.colspan = 1) :
    ∃ l, (p.node, l) ∈ (computeTableLayout t table available).calls ∧
      t.layoutCell p.node (max (l.width - (l.border.left + l.border.right) - (l.padding.left + l.padding.right)) 0) +
        (l.border.top + l.border.bottom) + (l.padding.top + l.padding.bottom) ≤ l.height ∧
      (∀ v, t.height p.node = .px v →
        v + (l.border.top + l.border.bottom) + (l.padding.top + l.padding.bottom) ≤ l.height) ∧
      l.border = t.border p.node ∧ l.padding = t.padding p.node := by
  let s : Setting t table available := ⟨_, _, _, _, rfl, rfl, rfl, rfl⟩
  refine ⟨_, cell_call t table available s G hG p hp, ?_⟩
  have hlt : p.row < (buildSectionGrid G.rows).nRows := (row_lt hp).1
  have hcol := in_columns t table available s G hG p hp
  have hge := (rowFold_ge t s.widths (buildSectionGrid G.rows).cells fun _ => 0).2 p hp h1
  have hsl : (sliceGet (rowHeights t (buildSectionGrid G.rows) s.widths) p.row p.rowspan).sum =
      ((buildSectionGrid G.rows).cells.foldl (rowCell t s.widths) fun _ => 0) p.row ∧
      (sliceGet (rowHeights t (buildSectionGrid G.rows) s.widths) p.row p.rowspan).length = 1 := by
    have hl : p.row + p.rowspan ≤ (rowHeights t (buildSectionGrid G.rows) s.widths).length := by
      rw [rowHeights_length]; omega
    obtain ⟨a, b⟩ := slice_sum _ p.row p.rowspan hl
    refine ⟨?_, by rw [b, h1]⟩
    rw [a, h1, List.take_succ_eq_append_getElem (by rw [rowHeights_length]; exact hlt), List.sum_append]
    simp [rowHeights]
  have hwl := (slice_sum s.widths p.col p.colspan hcol).2
  rw [hc1] at hwl
  unfold placeCell
  simp only [hsl.1, hsl.2, Nat.sub_self, Nat.cast_zero, mul_zero, add_zero]
  rw [hc1, hwl]
  simp only [Nat.sub_self, Nat.cast_zero, mul_zero, add_zero, and_true]
  simp only [cellHeight, hc1, Edges.horizontal, Edges.vertical] at hge
  refine ⟨?_, ?_⟩
  · refine le_trans ?_ hge
    exact add_le_add (add_le_add (le_max_left _ _) le_rfl) le_rfl
  · intro v hv
    refine le_trans ?_ hge
    rw [hv]
    have := le_max_right (t.layoutCell p.node (max ((sliceGet s.widths p.col 1).sum -
      ((t.border p.node).left + (t.border p.node).right) - ((t.padding p.node).left + (t.padding p.node).right)) 0)) v
    simp only
    linarith

/-- **C65**, the part that holds: all cells of one row that span no rows get the same height. -/
theorem C65_same_row_same_height (t : Tree N) (table : N) (available : ℚ)
    (G : Group N) (hG : G ∈ (buildModel t table).groups) (p q : Placed N)
    (hp : p ∈ (buildSectionGrid G.rows).cells) (hq : q ∈ (buildSectionGrid G.rows).cells)
    (hr : p.row = q.row) (hs : p.rowspan = q.rowspan) :
    ∃ l l', (p.node, l) ∈ (computeTableLayout t table available).calls ∧
      (q.node, l') ∈ (computeTableLayout t table available).calls ∧ l.height = l'.height := by
  let s : Setting t table available := ⟨_, _, _, _, rfl, rfl, rfl, rfl⟩
  refine ⟨_, _, cell_call t table available s G hG p hp, cell_call t table available s G hG q hq, ?_⟩
  unfold placeCell
  simp [hr, hs]

/-- a `tbody` with rows `A↓` and an empty one: `A` needs 30 -/
def tallCell : Tree Nat := tinyTree
  (fun n => if n = 0 then [1] else if n = 1 then [2, 4] else if n = 2 then [3] else [])
  (fun n => if n = 1 then .rowGroup else if n = 2 ∨ n = 4 then .row else if n = 3 then .cell else .table)
  (fun n => if n = 3 then some 2 else none) (fun _ => 30)

/-- **C65** fails for a cell spanning rows: rows take no height from it, and its box can be flat. -/
theorem C65_violated :
    boxOf (computeTableLayout tallCell 0 100).calls [1, 2] 3 = some ⟨0, 0, 100, 0⟩ ∧
    ∀ w, tallCell.layoutCell 3 w = 30 := by
  refine ⟨by decide +kernel, fun _ => rfl⟩

/-- a cell meeting the hypotheses of C65, with the box it gets -/
example : ∃ G ∈ (buildModel twoRows 0).groups, ∃ p ∈ (buildSectionGrid G.rows).cells, p.node = 3 ∧
    p.rowspan = 1 ∧ p.colspan = 1 ∧ twoRows.layoutCell 3 47 = 10 :=
  ⟨buildRowGroup twoRows 1, by decide +kernel, ⟨3, 0, 0, 1, 1⟩, by decide +kernel, rfl, rfl, rfl, by decide +kernel⟩

/-! ## C66 -/

/-- **C66.** Every column and row index used in laying out a table is in range. -/
theorem C66_in_range (t : Tree N) (table : N) (G : Group N) (hG : G ∈ (buildModel t table).groups) :
    (∀ p ∈ (buildSectionGrid G.rows).cells,
      p.col + p.colspan ≤ columnCount ((buildModel t table).groups.map fun g => buildSectionGrid g.rows) ∧
      1 ≤ p.colspan ∧ p.row + p.rowspan ≤ G.rows.length ∧ 1 ≤ p.rowspan) := by
  intro p hp
  obtain ⟨a, b, c, d⟩ := (C52_inside G.rows).2.1 p hp
  have := columnCount_ge (gs := (buildModel t table).groups.map fun g => buildSectionGrid g.rows)
      (List.mem_map_of_mem (f := fun g : Group N => buildSectionGrid g.rows) hG)
  exact ⟨by omega, a, d, b⟩

/-- **C66.** Columns line up in the whole table: cells of any rows and groups that start in the same
column start at the same place, and cells that end in the same column end at the same place. -/
theorem C66_aligned (t : Tree N) (table : N) (available : ℚ)
    (G G' : Group N) (hG : G ∈ (buildModel t table).groups) (hG' : G' ∈ (buildModel t table).groups)
    (p q : Placed N) (hp : p ∈ (buildSectionGrid G.rows).cells) (hq : q ∈ (buildSectionGrid G'.rows).cells) :
    ∃ l l', (p.node, l) ∈ (computeTableLayout t table available).calls ∧
      (q.node, l') ∈ (computeTableLayout t table available).calls ∧
      (p.col = q.col → l.x = l'.x) ∧
      (p.col + p.colspan = q.col + q.colspan → l.x + l.width = l'.x + l'.width) := by
  let s : Setting t table available := ⟨_, _, _, _, rfl, rfl, rfl, rfl⟩
  refine ⟨_, _, cell_call t table available s G hG p hp, cell_call t table available s G' hG' q hq, ?_, ?_⟩
  · intro h; simp [placeCell, h]
  · intro h
    unfold placeCell colXOffsets
    simp only
    rw [far_edge _ _ _ _ _ (row_lt hp).2.1 (in_columns t table available s G hG p hp),
      far_edge _ _ _ _ _ (row_lt hq).2.1 (in_columns t table available s G' hG' q hq), h]
    have : (p.col : ℚ) + p.colspan = q.col + q.colspan := by exact_mod_cast h
    rw [this]

/-- **C66.** A column whose cell in the first row specifies a width gets that width, or the width of the
cell's content when that is larger; so does every cell standing in that column alone. -/
theorem C66_specified (t : Tree N) (table : N) (available : ℚ) (hcw : ∀ n, 0 ≤ t.contentWidth n)
    (F : Group N) (i : Nat) (hF : IsFirstRow (buildModel t table).groups F i)
    (p : Placed N) (hp : p ∈ (buildSectionGrid F.rows).cells) (hpr : p.row = i) (hp1 : p.colspan = 1) (w : ℚ)
    (hw : t.width p.node = .px w ∨ ∃ v, t.width p.node = .percent v ∧ w = v / 100 * tableWidth t table available)
    (G : Group N) (hG : G ∈ (buildModel t table).groups) (q : Placed N)
    (hq : q ∈ (buildSectionGrid G.rows).cells) (hq1 : q.colspan = 1) (hqp : q.col = p.col) :
    ∃ l, (q.node, l) ∈ (computeTableLayout t table available).calls ∧ l.width = max w (t.contentWidth p.node) := by
  let s : Setting t table available := ⟨_, _, _, _, rfl, rfl, rfl, rfl⟩
  refine ⟨_, cell_call t table available s G hG q hq, ?_⟩
  have hcol := in_columns t table available s G hG q hq
  obtain ⟨a, b⟩ := slice_sum s.widths q.col q.colspan hcol
  unfold placeCell
  simp only
  rw [a, b, hq1, List.take_succ_eq_append_getElem (by omega), List.sum_append]
  simp only [List.sum_cons, List.sum_nil, add_zero, Nat.sub_self, Nat.cast_zero, mul_zero, add_sub_cancel_left]
  have hs := (scan_first t (tableWidth t table available) hcw hF q.col).1
  have hfind : cellFor ((buildSectionGrid F.rows).cellsInRow i) q.col = some p := by
    have hpm : p ∈ (buildSectionGrid F.rows).cellsInRow i := by simp [Grid.cellsInRow, hp, hpr]
    have hd := row_distinct F.rows i
    unfold cellFor
    generalize (buildSectionGrid F.rows).cellsInRow i = L at hpm hd
    induction L with
    | nil => simp at hpm
    | cons x r ih =>
      rw [List.pairwise_cons] at hd
      rcases List.mem_cons.1 hpm with rfl | hr
      · rw [List.find?_cons_of_pos]; simp [hp1, hqp]
      · rw [List.find?_cons_of_neg]
        · exact ih hr hd.2
        · simp only [decide_eq_true_eq]
          rintro ⟨h1, h2⟩
          exact hd.1 p hr h1 hp1 (by omega)
  have hask : askedWidth t (tableWidth t table available) ((buildSectionGrid F.rows).cellsInRow i) q.col =
      some (max w (t.contentWidth p.node)) := by
    simp only [askedWidth, hfind, Option.bind_some]
    rcases hw with h | ⟨v, h, rfl⟩
    · rw [h]
    · rw [h]
  rw [hask] at hs
  have : s.widths[q.col]? = some (max w (t.contentWidth p.node)) := by
    show (columnWidths t _ _ _ _)[q.col]? = _
    simp only [columnWidths]
    rw [List.getElem?_map, List.getElem?_range (by
      have : s.widths.length = columnCount ((buildModel t table).groups.map fun g => buildSectionGrid g.rows) :=
        columnWidths_length _ _ _ _ _
      omega)]
    simp [hs]
  exact (List.getElem?_eq_some_iff.1 this).2

/-- **C66.** If some column has no specified width and the columns' needs fit in the table, then the
columns together with the gutters take exactly the width of the table. -/
theorem C66_fill (t : Tree N) (sx : ℚ) (n : Nat) (hcw : ∀ n, 0 ≤ t.contentWidth n)
    (groups : List (Group N)) (F : Group N) (i : Nat) (hF : IsFirstRow groups F i) (tw : ℚ)
    (hfree : freeColumns t tw ((buildSectionGrid F.rows).cellsInRow i) n ≠ [])
    (hfit : neededWidth t tw ((buildSectionGrid F.rows).cellsInRow i) n ≤ tw - ((n : ℚ) + 1) * sx)
    (hsx : ((n : ℚ) + 1) * sx ≤ tw) :
    (columnWidths t n tw sx (groups.map fun g => buildSectionGrid g.rows)).sum + ((n : ℚ) + 1) * sx = tw := by
  have hs := scan_first t tw hcw hF
  have hok := scan_ok t tw hcw (groups.map fun g => buildSectionGrid g.rows)
  simp only [columnWidths]
  generalize scan t tw (groups.map fun g => buildSectionGrid g.rows) = S at hs hok
  generalize (buildSectionGrid F.rows).cellsInRow i = first at hs hfree hfit
  have he : S.explicit = askedWidth t tw first := by funext c; exact (hs c).1
  have hn : S.natural = contentOf t first := by funext c; exact (hs c).2
  have hauto : autoCols S n = freeColumns t tw first n := by
    unfold autoCols freeColumns
    rw [he]
    congr 1; funext c
    cases askedWidth t tw first c <;> simp
  rw [sum_getD]
  have e2 : (List.range n).filter (fun c => (S.explicit c).isNone) = autoCols S n := rfl
  rw [e2, auto_total S hok.2 n _ (by rw [hauto]; exact hfree), hauto, hn]
  unfold neededWidth at hfit
  have hfix : 0 ≤ ((List.range n).filterMap (askedWidth t tw first)).sum := by
    apply List.sum_nonneg
    intro x hx
    obtain ⟨c, _, hc⟩ := List.mem_filterMap.1 hx
    exact hok.1 c x (by rw [he]; exact hc)
  have hrem : remainingWidth S n tw sx = max (tw - ((n : ℚ) + 1) * sx - ((List.range n).filterMap (askedWidth t tw first)).sum) 0 := by
    simp only [remainingWidth, he]
    rw [max_eq_left (a := tw - ((n : ℚ) + 1) * sx) (by linarith)]
  rw [hrem, he]
  by_cases hw : HasWide t tw first n
  · rw [if_pos hw] at hfit
    rw [if_pos (show ∃ c ∈ freeColumns t tw first n, 50 ≤ contentOf t first c from hw)]
    have hnn : 0 ≤ (((freeColumns t tw first n).filter fun c => contentOf t first c < 50).map
        fun c => max (contentOf t first c) 14).sum := by
      apply List.sum_nonneg
      intro x hx
      obtain ⟨c, _, rfl⟩ := List.mem_map.1 hx
      exact le_trans (by norm_num) (le_max_right _ _)
    generalize ((List.range n).filterMap (askedWidth t tw first)).sum = a at hfit hfix ⊢
    generalize (((freeColumns t tw first n).filter fun c => contentOf t first c < 50).map
        fun c => max (contentOf t first c) 14).sum = c at hfit hnn ⊢
    rw [max_eq_left (a := tw - ((n : ℚ) + 1) * sx - a) (by linarith), max_eq_left (by linarith)]
    ring
  · rw [if_neg hw] at hfit
    rw [if_neg (show ¬ ∃ c ∈ freeColumns t tw first n, 50 ≤ contentOf t first c from hw)]
    rw [max_eq_left (by linarith)]
    ring

/-- **C66.** The columns never ask for more than the table offers or they need, whichever is larger. -/
theorem C66_no_more (t : Tree N) (sx : ℚ) (n : Nat) (hcw : ∀ n, 0 ≤ t.contentWidth n)
    (groups : List (Group N)) (F : Group N) (i : Nat) (hF : IsFirstRow groups F i) (tw : ℚ) :
    (columnWidths t n tw sx (groups.map fun g => buildSectionGrid g.rows)).sum ≤
      max (max (tw - ((n : ℚ) + 1) * sx) 0) (neededWidth t tw ((buildSectionGrid F.rows).cellsInRow i) n) := by
  have hs := scan_first t tw hcw hF
  have hok := scan_ok t tw hcw (groups.map fun g => buildSectionGrid g.rows)
  simp only [columnWidths]
  generalize scan t tw (groups.map fun g => buildSectionGrid g.rows) = S at hs hok
  generalize (buildSectionGrid F.rows).cellsInRow i = first at hs
  have he : S.explicit = askedWidth t tw first := by funext c; exact (hs c).1
  have hn : S.natural = contentOf t first := by funext c; exact (hs c).2
  have hauto : autoCols S n = freeColumns t tw first n := by
    unfold autoCols freeColumns
    rw [he]
    congr 1; funext c
    cases askedWidth t tw first c <;> simp
  rw [sum_getD]
  have e2 : (List.range n).filter (fun c => (S.explicit c).isNone) = autoCols S n := rfl
  rw [e2]
  have hrem : remainingWidth S n tw sx =
      max (max (tw - ((n : ℚ) + 1) * sx) 0 - ((List.range n).filterMap (askedWidth t tw first)).sum) 0 := by
    simp only [remainingWidth, he]
  by_cases hfree : autoCols S n = []
  · rw [hfree, he]
    have : ¬ HasWide t tw first n := by
      rw [hauto] at hfree
      rintro ⟨c, hc, _⟩
      rw [hfree] at hc; simp at hc
    unfold neededWidth
    rw [if_neg this]
    simp
  · rw [auto_total S hok.2 n _ hfree, hauto, hn, hrem, he]
    unfold neededWidth
    generalize ((List.range n).filterMap (askedWidth t tw first)).sum = a
    generalize max (tw - ((n : ℚ) + 1) * sx) 0 = b
    by_cases hw : HasWide t tw first n
    · rw [if_pos (show ∃ c ∈ freeColumns t tw first n, 50 ≤ contentOf t first c from hw), if_pos hw]
      have hnn : 0 ≤ (((freeColumns t tw first n).filter fun c => contentOf t first c < 50).map
          fun c => max (contentOf t first c) 14).sum := by
        apply List.sum_nonneg
        intro x hx
        obtain ⟨c, _, rfl⟩ := List.mem_map.1 hx
        exact le_trans (by norm_num) (le_max_right _ _)
      generalize (((freeColumns t tw first n).filter fun c => contentOf t first c < 50).map
        fun c => max (contentOf t first c) 14).sum = c at hnn ⊢
      rcases le_total (b - a) 0 with h1 | h1
      · rw [max_eq_right h1]
        rw [max_eq_right (by linarith)]; exact le_trans (by linarith) (le_max_right _ _)
      · rw [max_eq_left h1]
        rcases le_total (b - a - c) 0 with h2 | h2
        · rw [max_eq_right h2]; exact le_trans (by linarith) (le_max_right _ _)
        · rw [max_eq_left h2]; exact le_trans (by linarith) (le_max_left _ _)
    · rw [if_neg (show ¬ ∃ c ∈ freeColumns t tw first n, 50 ≤ contentOf t first c from hw), if_neg hw]
      rcases le_total (b - a) 0 with h1 | h1
      · rw [max_eq_right h1]; exact le_trans (by linarith) (le_max_right _ _)
      · rw [max_eq_left h1]; exact le_trans (by linarith) (le_max_left _ _)

/-- a `tbody` with rows `A B C` and `D E F`; `A` asks for 30, `B` holds 10 and `C` holds 60 -/
def threeColumns (a : Len) (content : Nat → ℚ) : Tree Nat := { tinyTree
  (fun n => if n = 0 then [1] else if n = 1 then [2, 6] else if n = 2 then [3, 4, 5] else if n = 6 then [7, 8, 9] else [])
  (fun n => if n = 1 then .rowGroup else if n = 2 ∨ n = 6 then .row
    else if n = 3 ∨ n = 4 ∨ n = 5 ∨ n = 7 ∨ n = 8 ∨ n = 9 then .cell else .table)
  (fun _ => none) (fun _ => 10) with
  spacingX := fun _ => .auto, width := fun n => if n = 3 then a else .auto, contentWidth := content }

def threeContent (n : Nat) : ℚ := if n = 4 then 10 else if n = 5 then 60 else 5

/-- the hypotheses of C66 are met, and the columns come out as 30, 14 and the rest -/
example : IsFirstRow (buildModel (threeColumns (.px 30) threeContent) 0).groups
      (buildRowGroup (threeColumns (.px 30) threeContent) 1) 0 ∧
    boxOf (computeTableLayout (threeColumns (.px 30) threeContent) 0 200).calls [1, 6] 7 = some ⟨2, 10, 30, 10⟩ ∧
    boxOf (computeTableLayout (threeColumns (.px 30) threeContent) 0 200).calls [1, 6] 8 = some ⟨34, 10, 14, 10⟩ ∧
    boxOf (computeTableLayout (threeColumns (.px 30) threeContent) 0 200).calls [1, 6] 9 = some ⟨50, 10, 148, 10⟩ := by
  refine ⟨⟨[], [], rfl, by simp, ⟨_, rfl, by decide +kernel⟩, by omega⟩, ?_, ?_, ?_⟩
  all_goals decide +kernel

example :
    freeColumns (threeColumns (.px 30) threeContent) 200 [⟨3, 0, 0, 1, 1⟩, ⟨4, 0, 1, 1, 1⟩, ⟨5, 0, 2, 1, 1⟩] 3 = [1, 2] ∧
    neededWidth (threeColumns (.px 30) threeContent) 200 [⟨3, 0, 0, 1, 1⟩, ⟨4, 0, 1, 1, 1⟩, ⟨5, 0, 2, 1, 1⟩] 3 = 44 := by
  decide +kernel

/-- **C66** fails for a column without a specified width: when the others take the whole table it gets
none, whatever its content needs. -/
theorem C66_violated :
    boxOf (computeTableLayout (threeColumns (.px 300) threeContent) 0 200).calls [1, 2] 5 = some ⟨320, 0, 0, 10⟩ ∧
    (threeColumns (.px 300) threeContent).contentWidth 5 = 60 := by
  refine ⟨by decide +kernel, by decide +kernel⟩

end Verif.Table
