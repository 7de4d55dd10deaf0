import Verif.Table.Lemmas2
import Mathlib.Data.List.Perm.Basic
import Mathlib.Data.List.Nodup

set_option linter.unusedVariables false
namespace Verif.Table
variable {N : Type}

/-! ## which nodes get a box -/

def nodesOfRow (r : Row N) : List N := r.node.toList ++ r.cells.map Source.node
def nodesOfRows (rows : List (Row N)) : List N := rows.flatMap nodesOfRow
def nodesOfGroup (g : Group N) : List N := g.node.toList ++ nodesOfRows g.rows
def nodesOfGroups (gs : List (Group N)) : List N := gs.flatMap nodesOfGroup

theorem nodesOfRows_nil : nodesOfRows ([] : List (Row N)) = [] := rfl

theorem nodesOfRow_build (t : Tree N) (n : N) : nodesOfRow (buildRow t n) = n :: cellsOfRow t n := by
  simp [nodesOfRow, buildRow, cellsOfRow, buildSourceCell, Function.comp_def]

theorem pushAnonCell_nodes (rows : List (Row N)) (c : Source N) :
    nodesOfRows (pushAnonCell rows c) = nodesOfRows rows ++ [c.node] := by
  unfold pushAnonCell
  split
  · next r hr =>
    obtain ⟨ys, rfl⟩ := List.getLast?_eq_some_iff.1 hr
    split
    · next hn => simp [nodesOfRows, nodesOfRow, hn]
    · simp [nodesOfRows, nodesOfRow]
  · next hr =>
    simp [nodesOfRows, nodesOfRow]

theorem buildRowGroup_nodes (t : Tree N) (n : N) :
    nodesOfGroup (buildRowGroup t n) = n :: partsOfGroup t n := by
  have key : ∀ (l : List N) (rows : List (Row N)),
      nodesOfRows (l.foldl (groupChild t) rows) = nodesOfRows rows ++ l.flatMap fun c =>
        if t.role c = .row then c :: cellsOfRow t c else if t.role c = .cell then [c] else [] := by
    intro l
    induction l with
    | nil => simp
    | cons c r ih =>
      intro rows
      simp only [List.foldl_cons, ih, List.flatMap_cons, ← List.append_assoc]
      congr 1
      simp only [groupChild]
      split
      · next h => simp [h, nodesOfRows, nodesOfRow_build]
      · next h => simp [h, pushAnonCell_nodes, buildSourceCell]
      · next h1 h2 => rw [if_neg h1, if_neg h2, List.append_nil]
  simp [nodesOfGroup, buildRowGroup, key, partsOfGroup, nodesOfRows_nil]

theorem withAnonGroup_nodes (gs : List (Group N)) (f : List (Row N) → List (Row N)) (x : List N)
    (hf : ∀ rows, nodesOfRows (f rows) = nodesOfRows rows ++ x) :
    nodesOfGroups (withAnonGroup gs f) = nodesOfGroups gs ++ x := by
  unfold withAnonGroup
  split
  · next g hg =>
    obtain ⟨ys, rfl⟩ := List.getLast?_eq_some_iff.1 hg
    split
    · next hn => simp [nodesOfGroups, nodesOfGroup, hn, hf]
    · simp [nodesOfGroups, nodesOfGroup, hf, nodesOfRows_nil]
  · simp [nodesOfGroups, nodesOfGroup, hf, nodesOfRows_nil]

theorem tableChild_nodes (t : Tree N) (m : TModel N) (c : N) :
    (nodesOfGroups (tableChild t m c).groups).Perm (nodesOfGroups m.groups ++
      if t.role c = .headerGroup ∨ t.role c = .rowGroup ∨ t.role c = .footerGroup then c :: partsOfGroup t c
      else if t.role c = .row then c :: cellsOfRow t c
      else if t.role c = .cell then [c]
      else []) := by
  have mid : ∀ (h b f x : List N), (h ++ (b ++ x) ++ f).Perm (h ++ b ++ f ++ x) := by
    intro h b f x
    simp only [List.append_assoc]
    exact List.Perm.append_left h (List.Perm.append_left b List.perm_append_comm)
  have fst : ∀ (h b f x : List N), (h ++ x ++ b ++ f).Perm (h ++ b ++ f ++ x) := by
    intro h b f x
    simp only [List.append_assoc]
    refine List.Perm.append_left h ?_
    rw [← List.append_assoc b f x]
    exact List.perm_append_comm
  have hsplit : ∀ m : TModel N, nodesOfGroups m.groups =
      nodesOfGroups m.header ++ nodesOfGroups m.body ++ nodesOfGroups m.footer := by
    intro m; simp [TModel.groups, nodesOfGroups]
  have hone : ∀ (gs : List (Group N)) (g : Group N), nodesOfGroups (gs ++ [g]) = nodesOfGroups gs ++ nodesOfGroup g := by
    intro gs g; simp [nodesOfGroups]
  simp only [tableChild]
  split
  · next h => simpa [h, hsplit, hone, buildRowGroup_nodes] using fst (nodesOfGroups m.header) (nodesOfGroups m.body) (nodesOfGroups m.footer) (c :: partsOfGroup t c)
  · next h => simpa [h, hsplit, hone, buildRowGroup_nodes] using mid (nodesOfGroups m.header) (nodesOfGroups m.body) (nodesOfGroups m.footer) (c :: partsOfGroup t c)
  · next h => simp [h, hsplit, hone, buildRowGroup_nodes]
  · next h =>
    rw [hsplit, hsplit]
    simp only [h]
    rw [withAnonGroup_nodes m.body _ (c :: cellsOfRow t c)
      (by intro rows; simp [nodesOfRows, nodesOfRow_build])]
    simpa using mid (nodesOfGroups m.header) (nodesOfGroups m.body) (nodesOfGroups m.footer) (c :: cellsOfRow t c)
  · next h =>
    rw [hsplit, hsplit]
    simp only [h]
    rw [withAnonGroup_nodes m.body _ [c] (by intro rows; simp [pushAnonCell_nodes, buildSourceCell])]
    simpa using mid (nodesOfGroups m.header) (nodesOfGroups m.body) (nodesOfGroups m.footer) [c]
  · next h1 h2 h3 h4 h5 =>
    rw [if_neg (by rintro (h | h | h); exacts [h1 h, h2 h, h3 h]), if_neg h4, if_neg h5, List.append_nil]

theorem buildModel_nodes (t : Tree N) (table : N) :
    (nodesOfGroups (buildModel t table).groups).Perm (partsOfTable t table) := by
  have key : ∀ (l : List N) (m : TModel N),
      (nodesOfGroups (l.foldl (tableChild t) m).groups).Perm (nodesOfGroups m.groups ++ l.flatMap fun c =>
        if t.role c = .headerGroup ∨ t.role c = .rowGroup ∨ t.role c = .footerGroup then c :: partsOfGroup t c
        else if t.role c = .row then c :: cellsOfRow t c
        else if t.role c = .cell then [c]
        else []) := by
    intro l
    induction l with
    | nil => intro m; simp
    | cons c r ih =>
      intro m
      simp only [List.foldl_cons, List.flatMap_cons, ← List.append_assoc]
      exact (ih _).trans (List.Perm.append_right _ (tableChild_nodes t m c))
  simpa [buildModel, TModel.groups, nodesOfGroups, partsOfTable] using
    key (t.children table) ⟨[], [], []⟩

/-! ## the calls of set_layout -/

theorem cellsInRow_nodes (rows : List (Row N)) (i : Nat) (r : Row N) (h : rows[i]? = some r) :
    ((buildSectionGrid rows).cellsInRow i).map Placed.node = r.cells.map Source.node := by
  have hs := C52_all_placed rows
  have h1 : ((buildSectionGrid rows).cellsInRow i).map Placed.node =
      (((buildSectionGrid rows).cells.map (fun p => (p.node, p.row, p.colspan, p.rowspan))).filter
        fun x => x.2.1 = i).map fun x => x.1 := by
    rw [List.filter_map, List.map_map]
    rfl
  rw [h1, hs, List.filter_map, List.map_map]
  have key : ∀ (rows : List (Row N)) (k : Nat), ((rows.zipIdx k).flatMap (fun (q, j) => q.cells.map fun s => (s, j))).filter
      (fun s => s.2 = i) = if k ≤ i then ((rows[i - k]?.map fun r : Row N => r.cells.map fun s => (s, i)).getD []) else [] := by
    intro rows
    induction rows with
    | nil => intro k; simp
    | cons q rest ih =>
      intro k
      simp only [List.zipIdx_cons, List.flatMap_cons, List.filter_append, ih]
      by_cases hk : k = i
      · subst hk
        have : ¬ (k + 1 ≤ k) := by omega
        simp only [this, if_false, List.append_nil, le_refl, if_true, Nat.sub_self]
        simp
      · have : List.filter (fun s : Source N × Nat => decide (s.2 = i)) (q.cells.map fun s => (s, k)) = [] := by
          rw [List.filter_eq_nil_iff]
          intro x hx
          obtain ⟨s, _, rfl⟩ := List.mem_map.1 hx
          simpa using hk
        rw [this, List.nil_append]
        by_cases hle : k ≤ i
        · rw [if_pos hle, if_pos (by omega), show i - k = (i - (k + 1)) + 1 from by omega]
          simp
        · rw [if_neg hle, if_neg (by omega)]
  have := key rows 0
  simp only [Nat.zero_le, if_true, Nat.sub_zero, h, Option.map_some, Option.getD_some] at this
  unfold sourceCells
  have e : List.filter ((fun x : N × Nat × Nat × Nat => decide (x.2.1 = i)) ∘ fun s : Source N × Nat =>
      (s.1.node, s.2, max s.1.colspan 1, min (max s.1.rowspan 1) (rows.length - s.2))) =
      List.filter (fun s : Source N × Nat => decide (s.2 = i)) := rfl
  rw [e]
  rw [show rows.zipIdx = rows.zipIdx 0 from rfl, this, List.map_map]
  rfl

theorem placeRowsLayout_nodes (t : Tree N) (all : List (Row N)) (heights colX widths : List ℚ) (sx sy : ℚ)
    (rest : List (Row N)) (k : Nat) (h : ∀ i, rest[i]? = all[k + i]?) :
    (placeRowsLayout t (buildSectionGrid all) heights colX widths sx sy rest k).map Prod.fst = nodesOfRows rest := by
  induction rest generalizing k with
  | nil => rfl
  | cons r rs ih =>
    have h0 : all[k]? = some r := by have := h 0; simpa using this.symm
    have h1 : ∀ i, rs[i]? = all[k + 1 + i]? := by
      intro i
      have := h (i + 1)
      simp only [List.getElem?_cons_succ] at this
      rw [this]; congr 1; omega
    simp only [placeRowsLayout, List.map_append, ih (k + 1) h1, List.map_map]
    have e : List.map (Prod.fst ∘ fun c : Placed N => (c.node, placeCell t c heights colX widths sx sy))
        ((buildSectionGrid all).cellsInRow k) = r.cells.map Source.node := cellsInRow_nodes all k r h0
    rw [e]
    simp only [nodesOfRows, List.flatMap_cons, nodesOfRow]
    cases r.node <;> simp

theorem placeGroups_nodes (t : Tree N) (colX widths : List ℚ) (n : Nat) (sx sy : ℚ) (gs : List (Group N)) (y : ℚ) :
    (placeGroups t colX widths n sx sy gs y).1.map Prod.fst = nodesOfGroups gs := by
  induction gs generalizing y with
  | nil => rfl
  | cons g r ih =>
    simp only [placeGroups, List.map_append, ih]
    rw [placeRowsLayout_nodes t g.rows _ _ _ _ _ g.rows 0 (by simp)]
    simp only [nodesOfGroups, List.flatMap_cons, nodesOfGroup]
    cases g.node <;> simp

/-- the height a group takes -/
def groupHeight (t : Tree N) (widths : List ℚ) (sy : ℚ) (g : Group N) : ℚ :=
  sectionHeight (rowHeights t (buildSectionGrid g.rows) widths) sy

/-- where the group after `pre` starts -/
def groupTop (t : Tree N) (widths : List ℚ) (sy y : ℚ) (pre : List (Group N)) : ℚ :=
  y + (pre.map fun g => groupHeight t widths sy g + sy).sum

theorem placeGroups_end (t : Tree N) (colX widths : List ℚ) (n : Nat) (sx sy : ℚ) (gs : List (Group N)) (y : ℚ) :
    (placeGroups t colX widths n sx sy gs y).2 = groupTop t widths sy y gs := by
  induction gs generalizing y with
  | nil => simp [placeGroups, groupTop]
  | cons g r ih =>
    simp only [placeGroups, ih, groupTop, groupHeight, List.map_cons, List.sum_cons]
    ring

theorem placeRowsLayout_mem (t : Tree N) (grid : Grid N) (heights colX widths : List ℚ) (sx sy : ℚ)
    (rest : List (Row N)) (k i : Nat) (r : Row N) (h : rest[i]? = some r) :
    (∀ n, r.node = some n →
      (n, (⟨0, (rowYOffsets heights sy).getD (k + i) 0, widths.sum, heights.getD (k + i) 0, zeroEdges, zeroEdges⟩ : Layout))
        ∈ placeRowsLayout t grid heights colX widths sx sy rest k) ∧
    ∀ c ∈ grid.cellsInRow (k + i), (c.node, placeCell t c heights colX widths sx sy)
        ∈ placeRowsLayout t grid heights colX widths sx sy rest k := by
  induction rest generalizing k i with
  | nil => simp at h
  | cons q rs ih =>
    cases i with
    | zero =>
      simp only [List.getElem?_cons_zero, Option.some.injEq] at h
      subst h
      refine ⟨?_, ?_⟩
      · intro n hn
        simp [placeRowsLayout, hn]
      · intro c hc
        simp only [placeRowsLayout, List.mem_append]
        exact .inl (.inr (List.mem_map_of_mem (f := fun c : Placed N => (c.node, placeCell t c heights colX widths sx sy)) hc))
    | succ i =>
      simp only [List.getElem?_cons_succ] at h
      obtain ⟨h1, h2⟩ := ih (k + 1) i h
      rw [show k + (i + 1) = k + 1 + i from by omega]
      simp only [placeRowsLayout, List.mem_append]
      exact ⟨fun n hn => .inr (h1 n hn), fun c hc => .inr (h2 c hc)⟩

/-- the calls made for the group after `pre` -/
theorem placeGroups_mem (t : Tree N) (colX widths : List ℚ) (n : Nat) (sx sy : ℚ) (pre : List (Group N))
    (g : Group N) (post : List (Group N)) (y : ℚ) :
    (∀ m, g.node = some m → (m, (⟨0, groupTop t widths sy y pre, widths.sum + ((n : ℚ) + 1) * sx,
        groupHeight t widths sy g, zeroEdges, zeroEdges⟩ : Layout))
        ∈ (placeGroups t colX widths n sx sy (pre ++ g :: post) y).1) ∧
    ∀ e ∈ placeRowsLayout t (buildSectionGrid g.rows) (rowHeights t (buildSectionGrid g.rows) widths)
        colX widths sx sy g.rows 0, e ∈ (placeGroups t colX widths n sx sy (pre ++ g :: post) y).1 := by
  induction pre generalizing y with
  | nil =>
    refine ⟨?_, ?_⟩
    · intro m hm
      simp [placeGroups, hm, groupTop, groupHeight]
    · intro e he
      simp only [List.nil_append, placeGroups, List.mem_append]
      exact .inl (.inr he)
  | cons q r ih =>
    obtain ⟨h1, h2⟩ := ih (y + (groupHeight t widths sy q + sy))
    have e : groupTop t widths sy (y + (groupHeight t widths sy q + sy)) r = groupTop t widths sy y (q :: r) := by
      simp only [groupTop, List.map_cons, List.sum_cons]; ring
    rw [e] at h1
    simp only [List.cons_append, placeGroups, List.mem_append]
    exact ⟨fun m hm => .inr (h1 m hm), fun e he => .inr (h2 e he)⟩

theorem find_of_nodup {β : Type} [DecidableEq N] {l : List (N × β)} (h : (l.map Prod.fst).Nodup) {n : N} {x : β}
    (hm : (n, x) ∈ l) : l.reverse.find? (fun e => e.1 = n) = some (n, x) := by
  have h' : (l.reverse.map Prod.fst).Nodup := by
    rw [List.map_reverse]; exact List.nodup_reverse.2 h
  have hm' : (n, x) ∈ l.reverse := by simpa using hm
  generalize l.reverse = k at h' hm'
  induction k with
  | nil => simp at hm'
  | cons e r ih =>
    simp only [List.map_cons, List.nodup_cons] at h'
    rcases List.mem_cons.1 hm' with rfl | hm'
    · simp
    · have : e.1 ≠ n := by
        intro e1; apply h'.1; rw [e1]
        exact List.mem_map_of_mem (f := Prod.fst) hm'
      rw [List.find?_cons_of_neg (by simpa using this)]
      exact ih h'.2 hm'

theorem columnCount_ge {gs : List (Grid N)} {g : Grid N} (h : g ∈ gs) : g.nCols ≤ columnCount gs := by
  have key : ∀ (l : List Nat) (a : Nat), a ≤ l.foldl max a ∧ ∀ x ∈ l, x ≤ l.foldl max a := by
    intro l
    induction l with
    | nil => simp
    | cons b r ih =>
      intro a
      simp only [List.foldl_cons, List.mem_cons]
      obtain ⟨h1, h2⟩ := ih (max a b)
      refine ⟨by omega, ?_⟩
      rintro x (rfl | hx)
      · omega
      · exact h2 x hx
  exact (key _ 0).2 _ (List.mem_map_of_mem h)

end Verif.Table
