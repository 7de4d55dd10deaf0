import Verif.Table.Lemmas3

set_option linter.unusedVariables false
namespace Verif.Table
variable {N : Type}

/-! ## C67 -/

/-- **C67.** In a table with at least one cell, every row group, row and cell gets a box, each exactly
once, and nothing else does. -/
theorem C67_every_part_once (t : Tree N) (table : N) (available : ℚ)
    (h : (computeTableLayout t table available).calls ≠ []) :
    ((computeTableLayout t table available).calls.map Prod.fst).Perm (partsOfTable t table) := by
  simp only [computeTableLayout] at h ⊢
  split
  · next h0 => rw [if_pos h0] at h; exact absurd rfl h
  · simp only [placeGroups_nodes]
    exact buildModel_nodes t table

/-- **C67.** The only tables for which nothing is laid out are those without cells. -/
theorem C67_laid_out (t : Tree N) (table : N) (available : ℚ) :
    (computeTableLayout t table available).calls ≠ [] ↔
      ∃ g ∈ (buildModel t table).groups, ∃ r ∈ g.rows, r.cells ≠ [] := by
  have hpos : (∃ g ∈ (buildModel t table).groups, ∃ r ∈ g.rows, r.cells ≠ []) ↔
      columnCount ((buildModel t table).groups.map fun g => buildSectionGrid g.rows) ≠ 0 := by
    constructor
    · rintro ⟨g, hg, r, hr, hne⟩ h0
      have hge := columnCount_ge (gs := (buildModel t table).groups.map fun g => buildSectionGrid g.rows)
        (List.mem_map_of_mem (f := fun g : Group N => buildSectionGrid g.rows) hg)
      rw [h0] at hge
      obtain ⟨i, hi⟩ := List.getElem?_of_mem hr
      have hc := cellsInRow_nodes g.rows i r hi
      have : (buildSectionGrid g.rows).cells = [] := by
        cases hcs : (buildSectionGrid g.rows).cells with
        | nil => rfl
        | cons p l =>
          have := (C52_inside g.rows).2.1 p (by rw [hcs]; simp)
          omega
      rw [Grid.cellsInRow, this] at hc
      simp only [List.filter_nil, List.map_nil] at hc
      exact hne (List.map_eq_nil_iff.1 hc.symm)
    · intro h0
      by_contra hno
      apply h0
      have hz : ∀ g ∈ (buildModel t table).groups, (buildSectionGrid g.rows).nCols = 0 := by
        intro g hg
        have := (C52_inside g.rows).2.2 0
        have hc : (buildSectionGrid g.rows).cells = [] := by
          have hs := C52_all_placed g.rows
          have : sourceCells g.rows = [] := by
            unfold sourceCells
            rw [List.flatMap_eq_nil_iff]
            rintro ⟨r, i⟩ hri
            have : r ∈ g.rows := by
              have := (List.mem_zipIdx' hri).2; rw [this]; exact List.getElem_mem _
            simp only [List.map_eq_nil_iff]
            by_contra hne
            exact hno ⟨g, hg, r, this, hne⟩
          rw [this] at hs
          simpa using hs
        have := this (by rw [hc]; simp)
        omega
      unfold columnCount
      rw [List.map_map]
      have key : ∀ l : List Nat, (∀ x ∈ l, x = 0) → l.foldl max 0 = 0 := by
        intro l
        induction l with
        | nil => simp
        | cons a r ih =>
          intro h
          have := h a (by simp)
          subst this
          simpa using ih (fun x hx => h x (by simp [hx]))
      apply key
      intro x hx
      obtain ⟨g, hg, rfl⟩ := List.mem_map.1 hx
      exact hz g hg
  rw [hpos]
  simp only [computeTableLayout]
  constructor
  · intro h h0; rw [if_pos h0] at h; exact h rfl
  · intro h0
    rw [if_neg h0]
    obtain ⟨g, hg, r, hr, hne⟩ := hpos.2 h0
    obtain ⟨pre, post, e⟩ := List.append_of_mem hg
    obtain ⟨i, hi⟩ := List.getElem?_of_mem hr
    have hc := cellsInRow_nodes g.rows i r hi
    cases hcs : (buildSectionGrid g.rows).cellsInRow i with
    | nil => rw [hcs] at hc; exact absurd (List.map_eq_nil_iff.1 hc.symm) hne
    | cons p l =>
      have aux : ∀ (n : Nat) (widths : List ℚ) (sx sy : ℚ),
          (placeGroups t (colXOffsets widths sx) widths n sx sy (pre ++ g :: post) sy).1 ≠ [] := by
        intro n widths sx sy
        have h1 := (placeRowsLayout_mem t (buildSectionGrid g.rows)
          (rowHeights t (buildSectionGrid g.rows) widths) (colXOffsets widths sx) widths sx sy g.rows 0 i r hi).2 p
          (by rw [Nat.zero_add, hcs]; simp)
        exact List.ne_nil_of_mem
          ((placeGroups_mem t (colXOffsets widths sx) widths n sx sy pre g post sy).2 _ h1)
      rw [← e] at aux
      exact aux _ _ _ _

/-! ## C53 -/

/-- what `compute_table_layout` works with -/
structure Setting (t : Tree N) (table : N) (available : ℚ) where
  n : Nat
  sx : ℚ
  sy : ℚ
  widths : List ℚ
  hn : n = columnCount ((buildModel t table).groups.map fun g => buildSectionGrid g.rows)
  hsx : sx = (t.spacingX table).pxOr 2
  hsy : sy = (t.spacingY table).pxOr 2
  hw : widths = columnWidths t n (tableWidth t table available) sx
    ((buildModel t table).groups.map fun g => buildSectionGrid g.rows)

theorem compute_calls (t : Tree N) (table : N) (available : ℚ) (s : Setting t table available)
    (h : (computeTableLayout t table available).calls ≠ []) :
    (computeTableLayout t table available).calls =
      (placeGroups t (colXOffsets s.widths s.sx) s.widths s.n s.sx s.sy (buildModel t table).groups s.sy).1 ∧
    (computeTableLayout t table available).height =
      groupTop t s.widths s.sy s.sy (buildModel t table).groups := by
  obtain ⟨n, sx, sy, widths, rfl, rfl, rfl, rfl⟩ := s
  simp only [computeTableLayout] at h ⊢
  by_cases h0 : columnCount ((buildModel t table).groups.map fun g => buildSectionGrid g.rows) = 0
  · rw [if_pos h0] at h; exact absurd rfl h
  · rw [if_neg h0]
    exact ⟨rfl, placeGroups_end _ _ _ _ _ _ _ _⟩

/-- the box of a cell whose row and group are elements of the document -/
theorem cell_box [DecidableEq N] (t : Tree N) (table : N) (available : ℚ)
    (hnd : (partsOfTable t table).Nodup) (s : Setting t table available)
    (pre post : List (Group N)) (G : Group N) (hg : (buildModel t table).groups = pre ++ G :: post)
    (g r : N) (hgn : G.node = some g) (R : Row N) (p : Placed N) (hp : p ∈ (buildSectionGrid G.rows).cells)
    (hR : G.rows[p.row]? = some R) (hrn : R.node = some r) :
    boxOf (computeTableLayout t table available).calls [g, r] p.node =
      some ⟨(colXOffsets s.widths s.sx).getD p.col 0,
        groupTop t s.widths s.sy s.sy pre +
          (rowYOffsets (rowHeights t (buildSectionGrid G.rows) s.widths) s.sy).getD p.row 0,
        (sliceGet s.widths p.col p.colspan).sum + s.sx * (((sliceGet s.widths p.col p.colspan).length - 1 : Nat) : ℚ),
        (sliceGet (rowHeights t (buildSectionGrid G.rows) s.widths) p.row p.rowspan).sum + s.sy *
          (((sliceGet (rowHeights t (buildSectionGrid G.rows) s.widths) p.row p.rowspan).length - 1 : Nat) : ℚ)⟩ := by
  have hpr : p ∈ (buildSectionGrid G.rows).cellsInRow p.row := by simp [Grid.cellsInRow, hp]
  have hne : (computeTableLayout t table available).calls ≠ [] := by
    rw [C67_laid_out]
    refine ⟨G, by rw [hg]; simp, R, List.mem_of_getElem? hR, ?_⟩
    intro e
    have := cellsInRow_nodes G.rows p.row R hR
    rw [e, List.map_nil, List.map_eq_nil_iff] at this
    rw [this] at hpr; simp at hpr
  obtain ⟨hc, _⟩ := compute_calls t table available s hne
  have hnd' : ((computeTableLayout t table available).calls.map Prod.fst).Nodup :=
    (C67_every_part_once t table available hne).nodup_iff.2 hnd
  have hm := placeGroups_mem t (colXOffsets s.widths s.sx) s.widths s.n s.sx s.sy pre G post s.sy
  rw [← hg, ← hc] at hm
  have hrow := placeRowsLayout_mem t (buildSectionGrid G.rows) (rowHeights t (buildSectionGrid G.rows) s.widths)
    (colXOffsets s.widths s.sx) s.widths s.sx s.sy G.rows 0 p.row R hR
  rw [Nat.zero_add] at hrow
  have f1 := find_of_nodup hnd' (hm.1 g hgn)
  have f2 := find_of_nodup hnd' (hm.2 _ (hrow.1 r hrn))
  have f3 := find_of_nodup hnd' (hm.2 _ (hrow.2 p hpr))
  simp only [boxOf, f3, Option.map_some, List.cons_append, List.nil_append, absolute, f1, f2, placeCell]
  simp

/-- **C53**, the part that holds.  Let the nodes of the table be distinct, the spacing and the content
widths not negative.  Take two cells whose rows and row groups are elements of the document.  If they
stand in different groups, or share no slot of their group, then their boxes on the page are at least
one gutter apart, whatever the column widths, row heights and spans. -/
theorem C53_cells_apart_partial [DecidableEq N] (t : Tree N) (table : N) (available : ℚ)
    (hnd : (partsOfTable t table).Nodup)
    (hx : 0 ≤ (t.spacingX table).pxOr 2) (hy : 0 ≤ (t.spacingY table).pxOr 2) (hcw : ∀ n, 0 ≤ t.contentWidth n)
    (i j : Nat) (G G' : Group N) (hG : (buildModel t table).groups[i]? = some G)
    (hG' : (buildModel t table).groups[j]? = some G') (g g' r r' : N) (hg : G.node = some g) (hg' : G'.node = some g')
    (p q : Placed N) (hp : p ∈ (buildSectionGrid G.rows).cells) (hq : q ∈ (buildSectionGrid G'.rows).cells)
    (R R' : Row N) (hR : G.rows[p.row]? = some R) (hR' : G'.rows[q.row]? = some R')
    (hr : R.node = some r) (hr' : R'.node = some r')
    (hpq : i ≠ j ∨ ¬ Overlap p q) :
    ∃ a b, boxOf (computeTableLayout t table available).calls [g, r] p.node = some a ∧
      boxOf (computeTableLayout t table available).calls [g', r'] q.node = some b ∧
      Apart ((t.spacingX table).pxOr 2) ((t.spacingY table).pxOr 2) a b := by
  let s : Setting t table available := ⟨_, _, _, _, rfl, rfl, rfl, rfl⟩
  have split : ∀ (k : Nat) (K : Group N), (buildModel t table).groups[k]? = some K →
      (buildModel t table).groups = (buildModel t table).groups.take k ++ K :: (buildModel t table).groups.drop (k + 1) := by
    intro k K h
    obtain ⟨hk, rfl⟩ := List.getElem?_eq_some_iff.1 h
    rw [List.cons_getElem_drop_succ, List.take_append_drop]
  refine ⟨_, _, cell_box t table available hnd s _ _ G (split i G hG) g r hg R p hp hR hr,
    cell_box t table available hnd s _ _ G' (split j G' hG') g' r' hg' R' q hq hR' hr', ?_⟩
  have hwn : ∀ w ∈ s.widths, 0 ≤ w := columnWidths_nonneg t _ _ _ _ hcw
  have hwl : s.widths.length = s.n := columnWidths_length _ _ _ _ _
  have inGrid : ∀ (k : Nat) (K : Group N) (x : Placed N), (buildModel t table).groups[k]? = some K →
      x ∈ (buildSectionGrid K.rows).cells →
      1 ≤ x.colspan ∧ 1 ≤ x.rowspan ∧ x.col + x.colspan ≤ s.widths.length ∧
      x.row + x.rowspan ≤ (rowHeights t (buildSectionGrid K.rows) s.widths).length := by
    intro k K x hk hx
    obtain ⟨a, b, c, d⟩ := (C52_inside K.rows).2.1 x hx
    refine ⟨a, b, ?_, by rw [rowHeights_length]; exact d⟩
    rw [hwl]
    have hmem : K ∈ (buildModel t table).groups := List.mem_of_getElem? hk
    have := columnCount_ge (gs := (buildModel t table).groups.map fun g => buildSectionGrid g.rows)
        (List.mem_map_of_mem (f := fun g : Group N => buildSectionGrid g.rows) hmem)
    have e : s.n = columnCount ((buildModel t table).groups.map fun g => buildSectionGrid g.rows) := rfl
    omega
  have hxs : 0 ≤ s.sx := hx
  have hys : 0 ≤ s.sy := hy
  have ghn : ∀ K : Group N, 0 ≤ groupHeight t s.widths s.sy K := by
    intro K
    unfold groupHeight sectionHeight
    exact add_nonneg (List.sum_nonneg (rowHeights_nonneg t _ _)) (mul_nonneg hys (Nat.cast_nonneg _))
  have topMono : ∀ (k : Nat) (K : Group N) (l : Nat), (buildModel t table).groups[k]? = some K → k < l →
      groupTop t s.widths s.sy s.sy ((buildModel t table).groups.take k) + groupHeight t s.widths s.sy K + s.sy ≤
      groupTop t s.widths s.sy s.sy ((buildModel t table).groups.take l) := by
    intro k K l hk hkl
    unfold groupTop
    obtain ⟨hlt, rfl⟩ := List.getElem?_eq_some_iff.1 hk
    have h1 := take_sum_mono (l := (buildModel t table).groups.map fun g => groupHeight t s.widths s.sy g + s.sy)
      (by
        intro x hx
        obtain ⟨K', _, rfl⟩ := List.mem_map.1 hx
        exact add_nonneg (ghn K') hys) (a := k + 1) (b := l) (by omega)
    rw [← List.map_take, ← List.map_take, List.take_succ_eq_append_getElem hlt, List.map_append, List.sum_append] at h1
    simp only [List.map_cons, List.map_nil, List.sum_cons, List.sum_nil, add_zero] at h1
    linarith
  have rowEndLe : ∀ (k : Nat) (K : Group N) (x : Placed N), (buildModel t table).groups[k]? = some K →
      x ∈ (buildSectionGrid K.rows).cells →
      (rowYOffsets (rowHeights t (buildSectionGrid K.rows) s.widths) s.sy).getD x.row 0 +
        ((sliceGet (rowHeights t (buildSectionGrid K.rows) s.widths) x.row x.rowspan).sum + s.sy *
          (((sliceGet (rowHeights t (buildSectionGrid K.rows) s.widths) x.row x.rowspan).length - 1 : Nat) : ℚ)) ≤
      groupHeight t s.widths s.sy K := by
    intro k K x hk hx
    obtain ⟨_, b, _, d⟩ := inGrid k K x hk hx
    have := tracks_end (s := s.sy) (x := 0) (rowHeights_nonneg t (buildSectionGrid K.rows) s.widths) hys b d
    unfold groupHeight sectionHeight
    unfold rowYOffsets
    linarith
  have rowStart : ∀ (k : Nat) (K : Group N) (x : Placed N), (buildModel t table).groups[k]? = some K →
      x ∈ (buildSectionGrid K.rows).cells →
      0 ≤ (rowYOffsets (rowHeights t (buildSectionGrid K.rows) s.widths) s.sy).getD x.row 0 := by
    intro k K x hk hx
    obtain ⟨_, b, _, d⟩ := inGrid k K x hk hx
    unfold rowYOffsets
    rw [offsets_getD _ _ _ _ (by omega)]
    have : 0 ≤ ((rowHeights t (buildSectionGrid K.rows) s.widths).take x.row).sum :=
      List.sum_nonneg (fun y hy => rowHeights_nonneg t _ _ y (List.mem_of_mem_take hy))
    have h2 : 0 ≤ s.sy * (x.row : ℚ) := mul_nonneg hys (Nat.cast_nonneg _)
    linarith
  obtain ⟨pc, pr, pcl, prl⟩ := inGrid i G p hG hp
  obtain ⟨qc, qr, qcl, qrl⟩ := inGrid j G' q hG' hq
  unfold Apart
  simp only
  by_cases hij : i = j
  · subst hij
    rw [hG] at hG'
    simp only [Option.some.injEq] at hG'
    subst hG'
    have hno : ¬ Overlap p q := by
      rcases hpq with h | h
      · exact absurd rfl h
      · exact h
    have hcases : p.col + p.colspan ≤ q.col ∨ q.col + q.colspan ≤ p.col ∨ p.row + p.rowspan ≤ q.row ∨
        q.row + q.rowspan ≤ p.row := by
      by_contra hc
      apply hno
      refine ⟨max p.row q.row, max p.col q.col, ⟨by omega, by omega, by omega, by omega⟩,
        ⟨by omega, by omega, by omega, by omega⟩⟩
    rcases hcases with h | h | h | h
    · left
      have := tracks_apart (s := s.sx) (x := s.sx) hwn hxs pc h (by omega)
      exact this
    · right; left
      have := tracks_apart (s := s.sx) (x := s.sx) hwn hxs qc h (by omega)
      exact this
    · right; right; left
      have := tracks_apart (s := s.sy) (x := 0) (rowHeights_nonneg t (buildSectionGrid G.rows) s.widths) hys pr h (by omega)
      unfold rowYOffsets
      have e : (t.spacingY table).pxOr 2 = s.sy := rfl
      rw [e]
      linarith
    · right; right; right
      have := tracks_apart (s := s.sy) (x := 0) (rowHeights_nonneg t (buildSectionGrid G.rows) s.widths) hys qr h (by omega)
      unfold rowYOffsets
      have e : (t.spacingY table).pxOr 2 = s.sy := rfl
      rw [e]
      linarith
  · have e : (t.spacingY table).pxOr 2 = s.sy := rfl
    rw [e]
    rcases Nat.lt_or_gt_of_ne hij with h | h
    · right; right; left
      have a := topMono i G j hG h
      have b := rowEndLe i G p hG hp
      have c := rowStart j G' q hG' hq
      linarith
    · right; right; right
      have a := topMono j G' i hG' h
      have b := rowEndLe j G' q hG' hq
      have c := rowStart i G p hG hp
      linarith

/-- **C53**, the part that holds.  The box of a cell lies inside the box of its row group, one gutter
away from both sides, and inside the height of the table, one gutter away from top and bottom. -/
theorem C53_cells_inside_partial [DecidableEq N] (t : Tree N) (table : N) (available : ℚ)
    (hnd : (partsOfTable t table).Nodup)
    (hx : 0 ≤ (t.spacingX table).pxOr 2) (hy : 0 ≤ (t.spacingY table).pxOr 2) (hcw : ∀ n, 0 ≤ t.contentWidth n)
    (G : Group N) (hG : G ∈ (buildModel t table).groups) (g r : N) (hg : G.node = some g)
    (p : Placed N) (hp : p ∈ (buildSectionGrid G.rows).cells)
    (R : Row N) (hR : G.rows[p.row]? = some R) (hr : R.node = some r) :
    ∃ a b, boxOf (computeTableLayout t table available).calls [g, r] p.node = some a ∧
      boxOf (computeTableLayout t table available).calls [] g = some b ∧
      b.x + (t.spacingX table).pxOr 2 ≤ a.x ∧ a.x + a.width + (t.spacingX table).pxOr 2 ≤ b.x + b.width ∧
      b.y ≤ a.y ∧ a.y + a.height ≤ b.y + b.height ∧
      (t.spacingY table).pxOr 2 ≤ b.y ∧
      b.y + b.height + (t.spacingY table).pxOr 2 ≤ (computeTableLayout t table available).height := by
  let s : Setting t table available := ⟨_, _, _, _, rfl, rfl, rfl, rfl⟩
  obtain ⟨pre, post, e⟩ := List.append_of_mem hG
  have hbox := cell_box t table available hnd s pre post G e g r hg R p hp hR hr
  have hne : (computeTableLayout t table available).calls ≠ [] := by
    intro h0
    rw [h0] at hbox
    simp [boxOf] at hbox
  obtain ⟨hc, hh⟩ := compute_calls t table available s hne
  have hnd' : ((computeTableLayout t table available).calls.map Prod.fst).Nodup :=
    (C67_every_part_once t table available hne).nodup_iff.2 hnd
  have hm := (placeGroups_mem t (colXOffsets s.widths s.sx) s.widths s.n s.sx s.sy pre G post s.sy).1 g hg
  rw [← e, ← hc] at hm
  have f1 := find_of_nodup hnd' hm
  have hgb : boxOf (computeTableLayout t table available).calls [] g =
      some ⟨0, groupTop t s.widths s.sy s.sy pre, s.widths.sum + ((s.n : ℚ) + 1) * s.sx,
        groupHeight t s.widths s.sy G⟩ := by
    simp only [boxOf, f1, Option.map_some, List.nil_append, absolute]
    simp [groupHeight]
  refine ⟨_, _, hbox, hgb, ?_⟩
  have hwn : ∀ w ∈ s.widths, 0 ≤ w := columnWidths_nonneg t _ _ _ _ hcw
  have hwl : s.widths.length = s.n := columnWidths_length _ _ _ _ _
  have hxs : 0 ≤ s.sx := hx
  have hys : 0 ≤ s.sy := hy
  obtain ⟨pa, pb, pc, pd⟩ := (C52_inside G.rows).2.1 p hp
  have hle : p.col + p.colspan ≤ s.widths.length := by
    rw [hwl]
    have := columnCount_ge (gs := (buildModel t table).groups.map fun g => buildSectionGrid g.rows)
        (List.mem_map_of_mem (f := fun g : Group N => buildSectionGrid g.rows) hG)
    have e : s.n = columnCount ((buildModel t table).groups.map fun g => buildSectionGrid g.rows) := rfl
    omega
  have hrl : p.row + p.rowspan ≤ (rowHeights t (buildSectionGrid G.rows) s.widths).length := by
    rw [rowHeights_length]; exact pd
  have rn := rowHeights_nonneg t (buildSectionGrid G.rows) s.widths
  have ghn : ∀ K : Group N, 0 ≤ groupHeight t s.widths s.sy K := by
    intro K
    unfold groupHeight sectionHeight
    exact add_nonneg (List.sum_nonneg (rowHeights_nonneg t _ _)) (mul_nonneg hys (Nat.cast_nonneg _))
  have sumNonneg : ∀ l : List (Group N), 0 ≤ (l.map fun g => groupHeight t s.widths s.sy g + s.sy).sum := by
    intro l
    apply List.sum_nonneg
    intro x hx
    obtain ⟨K, _, rfl⟩ := List.mem_map.1 hx
    exact add_nonneg (ghn K) hys
  have ex : (t.spacingX table).pxOr 2 = s.sx := rfl
  have ey : (t.spacingY table).pxOr 2 = s.sy := rfl
  rw [ex, ey, hh, e]
  simp only
  refine ⟨?_, ?_, ?_, ?_, ?_, ?_⟩
  · unfold colXOffsets
    rw [offsets_getD _ _ _ _ (by omega)]
    have h1 : 0 ≤ (s.widths.take p.col).sum := List.sum_nonneg (fun y hy => hwn y (List.mem_of_mem_take hy))
    have h2 : 0 ≤ s.sx * (p.col : ℚ) := mul_nonneg hxs (Nat.cast_nonneg _)
    linarith
  · have h1 := tracks_end (s := s.sx) (x := s.sx) hwn hxs pa hle
    unfold colXOffsets
    have h2 : ((s.widths.length - 1 : Nat) : ℚ) = (s.n : ℚ) - 1 := by
      rw [hwl, Nat.cast_sub (by omega)]; simp
    rw [h2] at h1
    have h3 : s.sx * ((s.n : ℚ) - 1) = s.n * s.sx - s.sx := by ring
    have h4 : ((s.n : ℚ) + 1) * s.sx = s.n * s.sx + s.sx := by ring
    linarith
  · unfold rowYOffsets
    rw [offsets_getD _ _ _ _ (by omega)]
    have h1 : 0 ≤ ((rowHeights t (buildSectionGrid G.rows) s.widths).take p.row).sum :=
      List.sum_nonneg (fun y hy => rn y (List.mem_of_mem_take hy))
    have h2 : 0 ≤ s.sy * (p.row : ℚ) := mul_nonneg hys (Nat.cast_nonneg _)
    linarith
  · have := tracks_end (s := s.sy) (x := 0) rn hys pb hrl
    unfold groupHeight sectionHeight rowYOffsets
    linarith
  · unfold groupTop
    have := sumNonneg pre
    linarith
  · unfold groupTop
    rw [List.map_append, List.sum_append, List.map_cons, List.sum_cons]
    have := sumNonneg post
    linarith

/-- a table whose parts are numbered: `children`, `role`, row spans and content heights -/
def tinyTree (children : Nat → List Nat) (role : Nat → Role) (rowspan : Nat → Option Nat) (h : Nat → ℚ) : Tree Nat :=
  { children := children, role := role, colspan := fun _ => none, rowspan := rowspan,
    width := fun _ => .auto, height := fun _ => .auto, border := fun _ => zeroEdges, padding := fun _ => zeroEdges,
    spacingX := fun _ => .zero, spacingY := fun _ => .zero, layoutCell := fun n _ => h n, contentWidth := fun _ => 10 }

/-- a `thead` with one row, followed by a bare `tr`; every cell needs 10 -/
def bareRow : Tree Nat := tinyTree
  (fun n => if n = 0 then [1, 4] else if n = 1 then [2] else if n = 2 then [3] else if n = 4 then [5] else [])
  (fun n => if n = 1 then .headerGroup else if n = 2 ∨ n = 4 then .row else if n = 3 ∨ n = 5 then .cell else .table)
  (fun _ => none) (fun _ => 10)

/-- **C53** fails: the rows of a table that stand in no row group are laid out from the top of the
table, over its header. -/
theorem C53_violated :
    (partsOfTable bareRow 0).Nodup ∧
    ∃ a b, boxOf (computeTableLayout bareRow 0 100).calls [1, 2] 3 = some a ∧
      boxOf (computeTableLayout bareRow 0 100).calls [4] 5 = some b ∧ Collide a b := by
  refine ⟨by decide, ⟨0, 0, 100, 10⟩, ⟨0, 0, 100, 10⟩, ?_, ?_, ?_⟩
  · decide +kernel
  · decide +kernel
  · unfold Collide; norm_num

/-- a `tbody` with one row of one cell -/
def oneCell : Tree Nat := { tinyTree
  (fun n => if n = 0 then [1] else if n = 1 then [2] else if n = 2 then [3] else [])
  (fun n => if n = 1 then .rowGroup else if n = 2 then .row else if n = 3 then .cell else .table)
  (fun _ => none) (fun _ => 10) with spacingX := fun _ => .auto }

/-- **C53** fails: with the default spacing the box of a row does not reach over its last cell. -/
theorem C53_row_box_violated :
    ∃ row cell, boxOf (computeTableLayout oneCell 0 100).calls [1] 2 = some row ∧
      boxOf (computeTableLayout oneCell 0 100).calls [1, 2] 3 = some cell ∧
      row.x + row.width < cell.x + cell.width := by
  refine ⟨⟨0, 0, 96, 10⟩, ⟨2, 0, 96, 10⟩, ?_, ?_, ?_⟩
  · decide +kernel
  · decide +kernel
  · norm_num

/-- a `tbody` with rows `A B↓` and `C`, default spacing: the hypotheses of C53 and C67 are met by a
table with a cell spanning rows -/
def twoRows : Tree Nat := { tinyTree
  (fun n => if n = 0 then [1] else if n = 1 then [2, 5] else if n = 2 then [3, 4] else if n = 5 then [6] else [])
  (fun n => if n = 1 then .rowGroup else if n = 2 ∨ n = 5 then .row else if n = 3 ∨ n = 4 ∨ n = 6 then .cell else .table)
  (fun n => if n = 4 then some 2 else none) (fun n => if n = 4 then 30 else 10) with
  spacingX := fun _ => .auto, spacingY := fun _ => .auto }

example : (partsOfTable twoRows 0).Nodup ∧ (computeTableLayout twoRows 0 100).calls ≠ [] ∧
    boxOf (computeTableLayout twoRows 0 100).calls [1, 2] 3 = some ⟨2, 2, 47, 10⟩ ∧
    boxOf (computeTableLayout twoRows 0 100).calls [1, 2] 4 = some ⟨51, 2, 47, 22⟩ ∧
    boxOf (computeTableLayout twoRows 0 100).calls [1, 5] 6 = some ⟨2, 14, 47, 10⟩ := by
  refine ⟨by decide, ?_, ?_, ?_, ?_⟩
  · rw [C67_laid_out]
    exact ⟨buildRowGroup twoRows 1, by decide +kernel, buildRow twoRows 2, by decide +kernel, by decide +kernel⟩
  all_goals decide +kernel

end Verif.Table
