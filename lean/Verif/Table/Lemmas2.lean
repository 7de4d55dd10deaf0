import Verif.Table.Props
import Mathlib.Tactic.Linarith
import Mathlib.Tactic.Ring
import Mathlib.Algebra.Order.BigOperators.Group.List

set_option linter.unusedVariables false
namespace Verif.Table
variable {N : Type}

/-! ## offsets -/

theorem offsets_length (s x : ℚ) (l : List ℚ) : (offsetsFrom s x l).length = l.length := by
  induction l generalizing x with
  | nil => rfl
  | cons w r ih => simp [offsetsFrom, ih]

theorem offsets_getD (s x : ℚ) (l : List ℚ) (i : Nat) (h : i < l.length) :
    (offsetsFrom s x l).getD i 0 = x + (l.take i).sum + s * i := by
  induction l generalizing x i with
  | nil => simp at h
  | cons w r ih =>
    cases i with
    | zero => simp [offsetsFrom]
    | succ i =>
      simp only [offsetsFrom, List.getD_cons_succ, List.take_succ_cons, List.sum_cons]
      rw [ih _ _ (by simpa using h)]
      push_cast
      ring

theorem slice_sum (l : List ℚ) (a k : Nat) (h : a + k ≤ l.length) :
    (sliceGet l a k).sum = (l.take (a + k)).sum - (l.take a).sum ∧ (sliceGet l a k).length = k := by
  unfold sliceGet
  rw [if_pos h]
  refine ⟨?_, by simp; omega⟩
  have : l.take (a + k) = l.take a ++ (l.drop a).take k := List.take_add
  rw [this, List.sum_append]; ring

theorem take_sum_mono {l : List ℚ} (hl : ∀ x ∈ l, 0 ≤ x) {a b : Nat} (h : a ≤ b) :
    (l.take a).sum ≤ (l.take b).sum := by
  obtain ⟨k, rfl⟩ := Nat.exists_eq_add_of_le h
  have : l.take (a + k) = l.take a ++ (l.drop a).take k := List.take_add
  rw [this, List.sum_append]
  have : 0 ≤ ((l.drop a).take k).sum :=
    List.sum_nonneg (fun x hx => hl x (List.mem_of_mem_drop (List.mem_of_mem_take hx)))
  linarith

/-- the far edge of the tracks `a … a+k-1` laid out from `x` -/
theorem far_edge (s x : ℚ) (l : List ℚ) (a k : Nat) (hk : 1 ≤ k) (h : a + k ≤ l.length) :
    (offsetsFrom s x l).getD a 0 +
      ((sliceGet l a k).sum + s * (((sliceGet l a k).length - 1 : Nat) : ℚ)) =
    x + (l.take (a + k)).sum + s * ((a : ℚ) + k - 1) := by
  obtain ⟨h1, h2⟩ := slice_sum l a k h
  rw [offsets_getD s x l a (by omega), h1, h2]
  have : ((k - 1 : Nat) : ℚ) = (k : ℚ) - 1 := by
    rw [Nat.cast_sub hk]; simp
  rw [this]; ring

/-- tracks that end before others start are at least one gutter apart -/
theorem tracks_apart {s x : ℚ} {l : List ℚ} (hl : ∀ w ∈ l, 0 ≤ w) (hs : 0 ≤ s) {a k b : Nat} (hk : 1 ≤ k)
    (h : a + k ≤ b) (hb : b < l.length) :
    (offsetsFrom s x l).getD a 0 +
      ((sliceGet l a k).sum + s * (((sliceGet l a k).length - 1 : Nat) : ℚ)) + s ≤
    (offsetsFrom s x l).getD b 0 := by
  rw [far_edge s x l a k hk (by omega), offsets_getD s x l b hb]
  have h1 := take_sum_mono hl h
  have h2 : (a : ℚ) + k ≤ b := by exact_mod_cast h
  have h3 : s * ((a : ℚ) + k) ≤ s * b := mul_le_mul_of_nonneg_left h2 hs
  linarith

/-- tracks end before the end of the section -/
theorem tracks_end {s x : ℚ} {l : List ℚ} (hl : ∀ w ∈ l, 0 ≤ w) (hs : 0 ≤ s) {a k : Nat} (hk : 1 ≤ k)
    (h : a + k ≤ l.length) :
    (offsetsFrom s x l).getD a 0 +
      ((sliceGet l a k).sum + s * (((sliceGet l a k).length - 1 : Nat) : ℚ)) ≤
    x + l.sum + s * (((l.length - 1 : Nat)) : ℚ) := by
  rw [far_edge s x l a k hk h]
  have h1 := take_sum_mono hl (a := a + k) (b := l.length) h
  rw [List.take_length] at h1
  have h2 : (a : ℚ) + k ≤ l.length := by exact_mod_cast h
  have h3 : ((l.length - 1 : Nat) : ℚ) = (l.length : ℚ) - 1 := by
    rw [Nat.cast_sub (by omega)]; simp
  rw [h3]
  have h4 : s * ((a : ℚ) + k) ≤ s * l.length := mul_le_mul_of_nonneg_left h2 hs
  linarith

/-! ## the widths and heights -/

theorem columnWidths_length (t : Tree N) (n : Nat) (tw s : ℚ) (gs : List (Grid N)) :
    (columnWidths t n tw s gs).length = n := by simp [columnWidths]

theorem rowHeights_length (t : Tree N) (g : Grid N) (w : List ℚ) : (rowHeights t g w).length = g.nRows := by
  simp [rowHeights]

theorem scan_nonneg (t : Tree N) (tw : ℚ) (hc : ∀ n, 0 ≤ t.contentWidth n) (l : List (Placed N)) (s : Scan)
    (h1 : ∀ c w, s.explicit c = some w → 0 ≤ w) (h2 : ∀ c, 0 ≤ s.natural c) :
    (∀ c w, (l.foldl (scanCell t tw) s).explicit c = some w → 0 ≤ w) ∧
    ∀ c, 0 ≤ (l.foldl (scanCell t tw) s).natural c := by
  induction l generalizing s with
  | nil => exact ⟨h1, h2⟩
  | cons p r ih =>
    simp only [List.foldl_cons]
    have hsp : ∀ w, specified t tw p.node = some w → 0 ≤ w := by
      intro w hw
      simp only [specified] at hw
      split at hw
      · cases hw; exact le_max_of_le_right (hc _)
      · cases hw; exact le_max_of_le_right (hc _)
      · cases hw
    refine ih _ ?_ ?_
    · intro c w hw
      simp only [scanCell] at hw
      split at hw
      · simp only at hw
        split at hw
        · simp only [setAt] at hw
          split at hw
          · exact hsp w hw
          · exact h1 c w hw
        · exact h1 c w hw
      · exact h1 c w hw
    · intro c
      simp only [scanCell]
      split
      · simp only
        split
        · simp only [setAt]
          split
          · exact hc _
          · exact h2 c
        · exact h2 c
      · exact h2 c

theorem scan_ok (t : Tree N) (tw : ℚ) (hc : ∀ n, 0 ≤ t.contentWidth n) (gs : List (Grid N)) :
    (∀ c w, (scan t tw gs).explicit c = some w → 0 ≤ w) ∧ ∀ c, 0 ≤ (scan t tw gs).natural c :=
  scan_nonneg t tw hc _ _ (by simp) (by simp)

theorem autoWidth_nonneg {s : Scan} (h2 : ∀ c, 0 ≤ s.natural c) (n : Nat) {rem : ℚ} (hr : 0 ≤ rem) (c : Nat) :
    0 ≤ autoWidth s n rem c := by
  simp only [autoWidth]
  split
  · next ht =>
    split
    · next hct =>
      split
      · exact le_max_of_le_left (h2 c)
      · exact div_nonneg (mul_nonneg (le_max_right _ _) (h2 c)) (le_of_lt hct)
    · exact div_nonneg (mul_nonneg hr (h2 c)) (le_of_lt ht)
  · exact div_nonneg hr (Nat.cast_nonneg _)

theorem columnWidths_nonneg (t : Tree N) (n : Nat) (tw s : ℚ) (gs : List (Grid N))
    (hc : ∀ n, 0 ≤ t.contentWidth n) : ∀ w ∈ columnWidths t n tw s gs, 0 ≤ w := by
  intro w hw
  obtain ⟨h1, h2⟩ := scan_ok t tw hc gs
  simp only [columnWidths] at hw
  obtain ⟨c, _, rfl⟩ := List.mem_map.1 hw
  cases he : (scan t tw gs).explicit c with
  | some v => simpa using h1 c v he
  | none =>
    simp only [Option.getD_none]
    refine autoWidth_nonneg h2 _ ?_ c
    simp only [remainingWidth]
    exact le_max_right _ _

theorem rowFold_ge (t : Tree N) (w : List ℚ) (l : List (Placed N)) (h : Nat → ℚ) :
    (∀ r, h r ≤ (l.foldl (rowCell t w) h) r) ∧
    ∀ p ∈ l, p.rowspan = 1 → cellHeight t w p ≤ (l.foldl (rowCell t w) h) p.row := by
  induction l generalizing h with
  | nil => simp
  | cons q r ih =>
    simp only [List.foldl_cons]
    obtain ⟨i1, i2⟩ := ih (rowCell t w h q)
    have hq : ∀ r, h r ≤ rowCell t w h q r := by
      intro r
      simp only [rowCell]
      split
      · exact le_refl _
      · split
        · next hlt =>
          simp only [setAt]
          split
          · next e => subst e; exact le_of_lt hlt
          · exact le_refl _
        · exact le_refl _
    refine ⟨fun r => le_trans (hq r) (i1 r), ?_⟩
    intro p hp h1
    rcases List.mem_cons.1 hp with rfl | hp
    · refine le_trans ?_ (i1 p.row)
      simp only [rowCell]
      rw [if_neg (by simpa using h1)]
      split
      · simp [setAt]
      · next hlt => exact not_lt.1 hlt
    · exact i2 p hp h1

theorem rowHeights_nonneg (t : Tree N) (g : Grid N) (w : List ℚ) : ∀ h ∈ rowHeights t g w, 0 ≤ h := by
  intro h hh
  simp only [rowHeights] at hh
  obtain ⟨r, _, rfl⟩ := List.mem_map.1 hh
  exact (rowFold_ge t w g.cells fun _ => 0).1 r

end Verif.Table
