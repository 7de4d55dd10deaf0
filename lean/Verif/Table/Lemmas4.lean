import Verif.Table.Props2
import Mathlib.Tactic.FieldSimp

set_option linter.unusedVariables false
namespace Verif.Table
variable {N : Type}

/-! ## the scan of the first row -/

theorem scan_col (t : Tree N) (tw : ℚ) (hc : ∀ n, 0 ≤ t.contentWidth n) (l : List (Placed N)) (s : Scan)
    (hd : l.Pairwise (fun p q => p.colspan = 1 → q.colspan = 1 → p.col ≠ q.col)) (c : Nat)
    (hs : (∃ p ∈ l, p.colspan = 1 ∧ p.col = c) → s.explicit c = none ∧ s.natural c = 0) :
    (l.foldl (scanCell t tw) s).explicit c = (if (cellFor l c).isSome then askedWidth t tw l c else s.explicit c) ∧
    (l.foldl (scanCell t tw) s).natural c = (if (cellFor l c).isSome then contentOf t l c else s.natural c) := by
  induction l generalizing s with
  | nil => simp [cellFor]
  | cons q r ih =>
    rw [List.pairwise_cons] at hd
    simp only [List.foldl_cons]
    by_cases hq : q.colspan = 1 ∧ q.col = c
    · obtain ⟨hq1, rfl⟩ := hq
      obtain ⟨e1, e2⟩ := hs ⟨q, by simp, hq1, rfl⟩
      have hnone : ∀ p ∈ r, ¬ (p.colspan = 1 ∧ p.col = q.col) := by
        intro p hp ⟨h1, h2⟩
        exact hd.1 p hp hq1 h1 h2.symm
      have hr : cellFor r q.col = none := by
        unfold cellFor
        rw [List.find?_eq_none]
        intro p hp; simpa using hnone p hp
      have := ih (scanCell t tw s q) hd.2 (by rintro ⟨p, hp, h⟩; exact absurd h (hnone p hp))
      rw [hr] at this
      simp only [Option.isSome_none, Bool.false_eq_true, ↓reduceIte] at this
      rw [this.1, this.2]
      have hf : cellFor (q :: r) q.col = some q := by simp [cellFor, hq1]
      simp only [hf, Option.isSome_some, ↓reduceIte, askedWidth, contentOf, Option.bind_some, Option.map_some,
        Option.getD_some, scanCell, if_pos hq1, e1, e2, Option.isNone_none, setAt]
      refine ⟨?_, ?_⟩
      · unfold specified; cases t.width q.node <;> rfl
      · split
        · unfold setAt; rw [if_pos rfl]
        · next h => rw [e2]; exact le_antisymm (hc _) (not_lt.1 h)
    · have hf : cellFor (q :: r) c = cellFor r c := by
        unfold cellFor; rw [List.find?_cons_of_neg]; simpa using hq
      have hk : (scanCell t tw s q).explicit c = s.explicit c ∧ (scanCell t tw s q).natural c = s.natural c := by
        unfold scanCell
        split
        · next h1 =>
          have hne : ¬ c = q.col := fun e => hq ⟨h1, e.symm⟩
          refine ⟨?_, ?_⟩
          · simp only
            split
            · simp [setAt, hne]
            · rfl
          · simp only
            split
            · simp [setAt, hne]
            · rfl
        · exact ⟨rfl, rfl⟩
      have := ih (scanCell t tw s q) hd.2 (by
        rintro ⟨p, hp, h⟩
        rw [hk.1, hk.2]
        exact hs ⟨p, by simp [hp], h⟩)
      rw [this.1, this.2, hk.1, hk.2]
      simp only [askedWidth, contentOf, hf]
      exact ⟨trivial, trivial⟩

theorem asked_none (t : Tree N) (tw : ℚ) (l : List (Placed N)) (c : Nat) (h : cellFor l c = none) :
    askedWidth t tw l c = none ∧ contentOf t l c = 0 := by simp [askedWidth, contentOf, h]

theorem firstRow_eq {groups : List (Group N)} {G : Group N} {i : Nat} (h : IsFirstRow groups G i) :
    firstRow (groups.map fun g => buildSectionGrid g.rows) = (buildSectionGrid G.rows).cellsInRow i := by
  obtain ⟨pre, post, rfl, hpre, ⟨R, hR, hne⟩, hj⟩ := h
  have hi : i < G.rows.length := (List.getElem?_eq_some_iff.1 hR).1
  have empty : ∀ (K : Group N) (k : Nat) (R' : Row N), K.rows[k]? = some R' → R'.cells = [] →
      (buildSectionGrid K.rows).cellsInRow k = [] := by
    intro K k R' h1 h2
    have := cellsInRow_nodes K.rows k R' h1
    rw [h2] at this
    simpa using this
  unfold firstRow
  have : (((pre ++ G :: post).map fun g => buildSectionGrid g.rows).flatMap
      fun g => (List.range g.nRows).map g.cellsInRow).find? (fun l => !l.isEmpty) =
      some ((buildSectionGrid G.rows).cellsInRow i) := by
    rw [List.find?_eq_some_iff_append]
    refine ⟨?_, ?_⟩
    · have := cellsInRow_nodes G.rows i R hR
      cases hc : (buildSectionGrid G.rows).cellsInRow i with
      | nil => rw [hc] at this; exact absurd (List.map_eq_nil_iff.1 this.symm) hne
      | cons a b => rfl
    · refine ⟨(pre.map fun g => buildSectionGrid g.rows).flatMap (fun g => (List.range g.nRows).map g.cellsInRow) ++
          (List.range i).map (buildSectionGrid G.rows).cellsInRow,
          ((List.range' (i + 1) (G.rows.length - (i + 1))).map (buildSectionGrid G.rows).cellsInRow) ++
          ((post.map fun g => buildSectionGrid g.rows).flatMap (fun g => (List.range g.nRows).map g.cellsInRow)), ?_, ?_⟩
      · have hsplit : List.range (buildSectionGrid G.rows).nRows =
            List.range i ++ i :: List.range' (i + 1) (G.rows.length - (i + 1)) := by
          have e : (buildSectionGrid G.rows).nRows = i + (1 + (G.rows.length - (i + 1))) := by
            show G.rows.length = _
            omega
          rw [e, List.range_eq_range', List.range_eq_range', ← List.range'_append_1, ← List.range'_append_1]
          simp [List.range'_one]
        simp only [List.map_append, List.map_cons, List.flatMap_append, List.flatMap_cons, hsplit]
        simp
      · intro l hl
        rw [List.mem_append] at hl
        rcases hl with hl | hl
        · obtain ⟨g, hg, hl⟩ := List.mem_flatMap.1 hl
          obtain ⟨K, hK, rfl⟩ := List.mem_map.1 hg
          obtain ⟨k, hk, rfl⟩ := List.mem_map.1 hl
          have hk' : k < K.rows.length := List.mem_range.1 hk
          have := empty K k _ (List.getElem?_eq_getElem hk') (hpre K hK _ (List.getElem_mem _))
          rw [this]; rfl
        · obtain ⟨k, hk, rfl⟩ := List.mem_map.1 hl
          have hk' : k < i := List.mem_range.1 hk
          have := empty G k _ (List.getElem?_eq_getElem (by omega)) (hj k _ hk' (List.getElem?_eq_getElem (by omega)))
          rw [this]; rfl
  rw [this]; rfl

theorem row_distinct (rows : List (Row N)) (i : Nat) :
    ((buildSectionGrid rows).cellsInRow i).Pairwise (fun p q => p.colspan = 1 → q.colspan = 1 → p.col ≠ q.col) := by
  unfold Grid.cellsInRow
  have h := C52_same_row rows
  rw [List.pairwise_filter]
  refine List.Pairwise.imp_of_mem ?_ h
  intro p q hp hq himp h1 h2 c1 c2 e
  simp only [decide_eq_true_eq] at h1 h2
  refine himp (by omega) ⟨i, p.col, ⟨by omega, ?_, by omega, by omega⟩, ⟨by omega, ?_, by omega, by omega⟩⟩
  · have := (row_lt hp).2.2.1; omega
  · have := (row_lt hq).2.2.1; omega

theorem scan_first (t : Tree N) (tw : ℚ) (hc : ∀ n, 0 ≤ t.contentWidth n) {groups : List (Group N)} {G : Group N}
    {i : Nat} (h : IsFirstRow groups G i) (c : Nat) :
    (scan t tw (groups.map fun g => buildSectionGrid g.rows)).explicit c =
      askedWidth t tw ((buildSectionGrid G.rows).cellsInRow i) c ∧
    (scan t tw (groups.map fun g => buildSectionGrid g.rows)).natural c =
      contentOf t ((buildSectionGrid G.rows).cellsInRow i) c := by
  unfold scan
  rw [firstRow_eq h]
  have := scan_col t tw hc _ ⟨fun _ => none, fun _ => 0⟩ (row_distinct G.rows i) c (by simp)
  rw [this.1, this.2]
  cases hcf : cellFor ((buildSectionGrid G.rows).cellsInRow i) c with
  | none =>
    have := asked_none t tw _ c hcf
    simp [this]
  | some p => simp

/-! ## sums -/

theorem sum_getD (e : Nat → Option ℚ) (a : Nat → ℚ) (l : List Nat) :
    (l.map fun c => (e c).getD (a c)).sum =
      (l.filterMap e).sum + ((l.filter fun c => (e c).isNone).map a).sum := by
  induction l with
  | nil => simp
  | cons c r ih =>
    cases h : e c with
    | none => simp [h, ih]; ring
    | some w => simp [h, ih]; ring

theorem sum_split (p : Nat → Prop) [DecidablePred p] (f g : Nat → ℚ) (l : List Nat) :
    (l.map fun c => if p c then f c else g c).sum =
      ((l.filter fun c => p c).map f).sum + ((l.filter fun c => ¬ p c).map g).sum := by
  induction l with
  | nil => simp
  | cons c r ih =>
    by_cases h : p c
    · simp [h, ih]; ring
    · simp [h, ih]; ring

theorem sum_scale (a b : ℚ) (f : Nat → ℚ) (l : List Nat) :
    (l.map fun c => a * f c / b).sum = a * (l.map f).sum / b := by
  induction l with
  | nil => simp
  | cons c r ih => simp [ih]; ring

theorem sum_const (a : ℚ) (l : List Nat) : (l.map fun _ => a).sum = (l.length : ℚ) * a := by
  induction l with
  | nil => simp
  | cons c r ih => simp [ih]; ring

theorem autoWidth_def (s : Scan) (n : Nat) (rem : ℚ) (c : Nat) : autoWidth s n rem c =
    if 0 < ((autoCols s n).map s.natural).sum then
      if 0 < (((autoCols s n).filter fun c => s.natural c ≥ 50).map s.natural).sum then
        if s.natural c < 50 then max (s.natural c) 14
        else max (rem - (((autoCols s n).filter fun c => s.natural c < 50).map fun c => max (s.natural c) 14).sum) 0 *
          s.natural c / (((autoCols s n).filter fun c => s.natural c ≥ 50).map s.natural).sum
      else rem * s.natural c / ((autoCols s n).map s.natural).sum
    else rem / ((autoCols s n).length : ℚ) := rfl

/-- what the auto columns together receive -/
theorem auto_total (s : Scan) (h2 : ∀ c, 0 ≤ s.natural c) (n : Nat) (rem : ℚ) (hne : autoCols s n ≠ []) :
    ((autoCols s n).map (autoWidth s n rem)).sum =
      if ∃ c ∈ autoCols s n, 50 ≤ s.natural c then
        (((autoCols s n).filter fun c => s.natural c < 50).map fun c => max (s.natural c) 14).sum +
          max (rem - (((autoCols s n).filter fun c => s.natural c < 50).map fun c => max (s.natural c) 14).sum) 0
      else rem := by
  have hcontent : (∃ c ∈ autoCols s n, 50 ≤ s.natural c) ↔
      0 < (((autoCols s n).filter fun c => s.natural c ≥ 50).map s.natural).sum := by
    constructor
    · rintro ⟨c, hc, h50⟩
      have : s.natural c ≤ (((autoCols s n).filter fun c => s.natural c ≥ 50).map s.natural).sum := by
        apply List.single_le_sum
        · intro x hx
          obtain ⟨d, _, rfl⟩ := List.mem_map.1 hx
          exact h2 d
        · exact List.mem_map_of_mem (by simp [hc, h50])
      linarith
    · intro hpos
      by_contra hno
      have : (autoCols s n).filter (fun c => s.natural c ≥ 50) = [] := by
        rw [List.filter_eq_nil_iff]
        intro c hc h; exact hno ⟨c, hc, by simpa using h⟩
      rw [this] at hpos
      simp at hpos
  have hle : (((autoCols s n).filter fun c => s.natural c ≥ 50).map s.natural).sum ≤ ((autoCols s n).map s.natural).sum := by
    have := sum_split (fun c => s.natural c ≥ 50) s.natural s.natural (autoCols s n)
    simp only [ite_self] at this
    rw [this]
    have : 0 ≤ (((autoCols s n).filter fun c => ¬ s.natural c ≥ 50).map s.natural).sum := by
      apply List.sum_nonneg
      intro x hx
      obtain ⟨d, _, rfl⟩ := List.mem_map.1 hx
      exact h2 d
    linarith
  by_cases hw : ∃ c ∈ autoCols s n, 50 ≤ s.natural c
  · rw [if_pos hw]
    have hpos := hcontent.1 hw
    have htot : 0 < ((autoCols s n).map s.natural).sum := lt_of_lt_of_le hpos hle
    have : (autoCols s n).map (autoWidth s n rem) = (autoCols s n).map (fun c =>
        if s.natural c < 50 then max (s.natural c) 14
        else max (rem - (((autoCols s n).filter fun c => s.natural c < 50).map fun c => max (s.natural c) 14).sum) 0 *
          s.natural c / (((autoCols s n).filter fun c => s.natural c ≥ 50).map s.natural).sum) := by
      apply List.map_congr_left
      intro c _
      rw [autoWidth_def]
      rw [if_pos htot, if_pos hpos]
    rw [this, sum_split (fun c => s.natural c < 50), sum_scale]
    have hf : (autoCols s n).filter (fun c => decide (¬ s.natural c < 50)) =
        (autoCols s n).filter (fun c => decide (s.natural c ≥ 50)) := by
      congr 1; funext c; simp
    rw [hf, mul_div_assoc, div_self (ne_of_gt hpos), mul_one]
  · rw [if_neg hw]
    have hz : ¬ 0 < (((autoCols s n).filter fun c => s.natural c ≥ 50).map s.natural).sum := fun h => hw (hcontent.2 h)
    by_cases htot : 0 < ((autoCols s n).map s.natural).sum
    · have : (autoCols s n).map (autoWidth s n rem) = (autoCols s n).map (fun c =>
          rem * s.natural c / ((autoCols s n).map s.natural).sum) := by
        apply List.map_congr_left
        intro c _
        rw [autoWidth_def]
        rw [if_pos htot, if_neg hz]
      rw [this, sum_scale, mul_div_assoc, div_self (ne_of_gt htot), mul_one]
    · have : (autoCols s n).map (autoWidth s n rem) = (autoCols s n).map (fun c =>
          rem / ((autoCols s n).length : ℚ)) := by
        apply List.map_congr_left
        intro c _
        rw [autoWidth_def]
        rw [if_neg htot]
      rw [this, sum_const]
      have : ((autoCols s n).length : ℚ) ≠ 0 := by
        rw [Nat.cast_ne_zero]; intro h; exact hne (List.length_eq_zero_iff.1 h)
      field_simp

end Verif.Table
