import Verif.Composite.Lemmas

/-! # The loops of `composite_tiles` -/
namespace Verif.Composite
open Verif.Layers

/-- What a pixel becomes. -/
def ov (t : CachedTile) (s d : Nat) : Nat := (overPixel t s d).getD 0

/-- All values have 32 bits. -/
def Words (l : List Nat) : Prop := ∀ p ∈ l, p < 2 ^ 32

theorem words_getD {l : List Nat} (h : Words l) (i : Nat) : l.getD i 0 < 2 ^ 32 := by
  rw [List.getD_eq_getElem?_getD]
  cases hi : l[i]? with
  | none => simp
  | some x => exact h x (List.mem_of_getElem? hi)

theorem getElem?_of_lt {l : List Nat} {i : Nat} (h : i < l.length) : l[i]? = some (l.getD i 0) := by
  rw [List.getD_eq_getElem?_getD, List.getElem?_eq_getElem h]; rfl

theorem words_set {l : List Nat} (h : Words l) (i : Nat) {x : Nat} (hx : x < 2 ^ 32) : Words (l.set i x) := by
  intro p hp
  rcases List.mem_or_eq_of_mem_set hp with h' | rfl
  · exact h p h'
  · exact hx

theorem getD_set (l : List Nat) (i j x : Nat) (hi : i < l.length) :
    (l.set i x).getD j 0 = if i = j then x else l.getD j 0 := by
  rw [List.getD_eq_getElem?_getD, List.getElem?_set, List.getD_eq_getElem?_getD]
  by_cases h : i = j
  · subst h; simp [hi]
  · simp [h]

theorem colLoop_spec (t : CachedTile) (hd : Words t.data) (bufRow srcRow : Nat) (n : Nat) :
    ∀ (col : Nat) (buf : List Nat), Words buf → (n ≠ 0 → srcRow + col + n ≤ t.data.length) →
      (n ≠ 0 → bufRow + col + n ≤ buf.length) →
      ∃ buf', colLoop t bufRow srcRow n col buf = some buf' ∧ buf'.length = buf.length ∧ Words buf' ∧
        ∀ j, buf'.getD j 0 = if bufRow + col ≤ j ∧ j < bufRow + col + n then
          ov t (t.data.getD (srcRow + (j - bufRow)) 0) (buf.getD j 0) else buf.getD j 0 := by
  induction n with
  | zero =>
    intro col buf hw _ _
    refine ⟨buf, rfl, rfl, hw, fun j => ?_⟩
    rw [if_neg (by omega)]
  | succ n ih =>
    intro col buf hw h1 h2
    have h1 := h1 (by omega)
    have h2 := h2 (by omega)
    have e1 := getElem?_of_lt (l := t.data) (i := srcRow + col) (by omega)
    have e2 := getElem?_of_lt (l := buf) (i := bufRow + col) (by omega)
    obtain ⟨o, ho, ho'⟩ := overPixel_some t (words_getD hd (srcRow + col)) (words_getD hw (bufRow + col))
    obtain ⟨buf', hb, hl, hw', hj⟩ := ih (col + 1) (buf.set (bufRow + col) o) (words_set hw _ ho')
      (fun _ => by omega) (fun _ => by rw [List.length_set]; omega)
    refine ⟨buf', ?_, by rw [hl, List.length_set], hw', ?_⟩
    · simp only [colLoop, e1, e2, ho, Option.bind_eq_bind, Option.bind_some]
      exact hb
    · intro j
      rw [hj, getD_set _ _ _ _ (by omega)]
      by_cases hjc : bufRow + col = j
      · subst hjc
        rw [if_neg (by omega), if_pos rfl, if_pos (by omega), ov,
          show srcRow + (bufRow + col - bufRow) = srcRow + col by omega, ho]
        rfl
      · rw [if_neg hjc]
        by_cases h3 : bufRow + (col + 1) ≤ j ∧ j < bufRow + (col + 1) + n
        · rw [if_pos h3, if_pos (by omega)]
        · rw [if_neg h3, if_neg (by omega)]

theorem at_inj {g : Target} {buf : List Nat} (hf : Fits g buf) {x y x' y' : Nat} (hx : x < g.width) (hx' : x' < g.width)
    (h : at' g x y = at' g x' y') : x = x' ∧ y = y' := by
  have hs := hf.1
  simp only [at'] at h
  have h1 : g.originX + x < g.stride := by omega
  have h2 : g.originX + x' < g.stride := by omega
  have e1 : ((g.originY + y) * g.stride + g.originX + x) / g.stride = g.originY + y := by
    rw [Nat.add_assoc, Nat.mul_comm, Nat.mul_add_div (by omega), Nat.div_eq_of_lt h1, Nat.add_zero]
  have e2 : ((g.originY + y') * g.stride + g.originX + x') / g.stride = g.originY + y' := by
    rw [Nat.add_assoc, Nat.mul_comm, Nat.mul_add_div (by omega), Nat.div_eq_of_lt h2, Nat.add_zero]
  rw [h, e2] at e1
  have hy : y = y' := by omega
  subst hy
  exact ⟨by omega, rfl⟩

theorem fits_len {g : Target} {buf buf' : List Nat} (hf : Fits g buf) (h : buf'.length = buf.length) : Fits g buf' :=
  ⟨hf.1, fun x y hx hy => by rw [h]; exact hf.2 x y hx hy⟩

/-- An index outside the target. -/
def Outside (g : Target) (j : Nat) : Prop := ∀ x y, x < g.width → y < g.height → j ≠ at' g x y

theorem rowLoop_spec (t : CachedTile) (ht : TileOk t) (g : Target) (col0 row0 dstX dstY0 : Nat) (hc : col0 ≤ t.width)
    (hx : dstX ≤ g.width) (n : Nat) :
    ∀ (row : Nat) (buf : List Nat), Words buf → Fits g buf → row0 ≤ row → row + n ≤ t.height →
      ∃ buf', rowLoop t g col0 row0 dstX dstY0 n row buf = some buf' ∧ buf'.length = buf.length ∧ Words buf' ∧
        (∀ j, Outside g j → buf'.getD j 0 = buf.getD j 0) ∧
        ∀ x y, x < g.width → y < g.height → buf'.getD (at' g x y) 0 =
          if (dstX ≤ x ∧ x < dstX + (t.width - col0)) ∧ (dstY0 + (row - row0) ≤ y ∧ y < dstY0 + (row - row0) + n) then
            ov t (t.data.getD ((row0 + (y - dstY0)) * t.width + col0 + (x - dstX)) 0) (buf.getD (at' g x y) 0)
          else buf.getD (at' g x y) 0 := by
  induction n with
  | zero =>
    intro row buf hw _ _ _
    refine ⟨buf, rfl, rfl, hw, fun _ _ => rfl, fun x y _ _ => ?_⟩
    rw [if_neg (by omega)]
  | succ n ih =>
    intro row buf hw hf hr hrn
    by_cases hy : g.height ≤ dstY0 + (row - row0)
    · refine ⟨buf, by simp only [rowLoop]; rw [if_pos hy], rfl, hw, fun _ _ => rfl, fun x y _ h => ?_⟩
      rw [if_neg (by omega)]
    · have s1 : sub? t.width col0 = some (t.width - col0) := by rw [sub?, if_pos hc]
      have s2 : sub? g.width dstX = some (g.width - dstX) := by rw [sub?, if_pos hx]
      by_cases hz : min (t.width - col0) (g.width - dstX) = 0
      · refine ⟨buf, ?_, rfl, hw, fun _ _ => rfl, fun x y hxx h => ?_⟩
        · simp only [rowLoop]
          rw [if_neg hy, s1, s2]
          simp only [Option.bind_eq_bind, Option.bind_some]
          rw [if_pos hz]
        · rw [if_neg (by omega)]
      · obtain ⟨cw, hcw⟩ : ∃ cw, cw = min (t.width - col0) (g.width - dstX) := ⟨_, rfl⟩
        obtain ⟨y0, hy0⟩ : ∃ y0, y0 = dstY0 + (row - row0) := ⟨_, rfl⟩
        have hcw1 : cw ≤ t.width - col0 := by rw [hcw]; exact Nat.min_le_left _ _
        have hcw2 : cw ≤ g.width - dstX := by rw [hcw]; exact Nat.min_le_right _ _
        have hlen : (g.originY + y0) * g.stride + g.originX + dstX + 0 + cw ≤ buf.length := by
          have := hf.2 (dstX + cw - 1) y0 (by omega) (by omega)
          omega
        have hsrc : row * t.width + col0 + 0 + cw ≤ t.data.length := by
          have h1 : (row + 1) * t.width ≤ t.height * t.width := Nat.mul_le_mul_right _ (by omega)
          have h2 := ht.1
          rw [Nat.mul_comm t.width t.height] at h2
          rw [Nat.add_mul, Nat.one_mul] at h1
          omega
        obtain ⟨b1, hb1, hl1, hw1, hj1⟩ := colLoop_spec t ht.2 ((g.originY + y0) * g.stride + g.originX + dstX)
          (row * t.width + col0) cw 0 buf hw (fun _ => hsrc) (fun _ => hlen)
        obtain ⟨b2, hb2, hl2, hw2, ho2, hj2⟩ := ih (row + 1) b1 hw1 (fits_len hf hl1) (by omega) (by omega)
        have hrange : ∀ j, ((g.originY + y0) * g.stride + g.originX + dstX + 0 ≤ j ∧
            j < (g.originY + y0) * g.stride + g.originX + dstX + 0 + cw) →
            ∃ x, x < g.width ∧ dstX ≤ x ∧ x < dstX + cw ∧ j = at' g x y0 := by
          intro j hj
          refine ⟨j - ((g.originY + y0) * g.stride + g.originX), by omega, by omega, by omega, ?_⟩
          rw [at']; omega
        refine ⟨b2, ?_, hl2.trans hl1, hw2, ?_, ?_⟩
        · simp only [rowLoop]
          rw [if_neg hy, s1, s2]
          simp only [Option.bind_eq_bind, Option.bind_some]
          rw [if_neg hz, ← hcw, ← hy0, hb1]
          exact hb2
        · intro j hj
          rw [ho2 j hj, hj1, if_neg]
          intro hh
          obtain ⟨x, hx1, _, _, he⟩ := hrange j hh
          exact hj x y0 hx1 (by omega) he
        · intro x y hxg hyg
          rw [hj2 x y hxg hyg]
          have hat : b1.getD (at' g x y) 0 = if y = y0 ∧ dstX ≤ x ∧ x < dstX + cw then
              ov t (t.data.getD (row * t.width + col0 + (x - dstX)) 0) (buf.getD (at' g x y) 0)
              else buf.getD (at' g x y) 0 := by
            rw [hj1]
            by_cases hh : y = y0 ∧ dstX ≤ x ∧ x < dstX + cw
            · obtain ⟨rfl, h1, h2⟩ := hh
              have hin : (g.originY + y) * g.stride + g.originX + dstX + 0 ≤ at' g x y ∧
                  at' g x y < (g.originY + y) * g.stride + g.originX + dstX + 0 + cw := by rw [at']; omega
              rw [if_pos hin, if_pos ⟨rfl, h1, h2⟩]
              congr 2
              rw [at']
              congr 1
              omega
            · rw [if_neg hh]
              apply if_neg
              intro hh'
              obtain ⟨x', hx1, h1, h2, he⟩ := hrange _ hh'
              obtain ⟨rfl, rfl⟩ := at_inj hf hxg hx1 he
              exact hh ⟨rfl, h1, h2⟩
          rw [hat]
          have hxcw : x < dstX + cw ↔ x < dstX + (t.width - col0) := by omega
          by_cases h1 : dstX ≤ x ∧ x < dstX + (t.width - col0)
          · by_cases h2 : y = y0
            · have e : row = row0 + (y - dstY0) := by omega
              have n1 : ¬ ((dstX ≤ x ∧ x < dstX + (t.width - col0)) ∧
                  (dstY0 + (row + 1 - row0) ≤ y ∧ y < dstY0 + (row + 1 - row0) + n)) := by omega
              have n2 : y = y0 ∧ dstX ≤ x ∧ x < dstX + cw := ⟨h2, h1.1, hxcw.mpr h1.2⟩
              have n3 : (dstX ≤ x ∧ x < dstX + (t.width - col0)) ∧
                  (dstY0 + (row - row0) ≤ y ∧ y < dstY0 + (row - row0) + (n + 1)) := ⟨h1, by omega⟩
              rw [if_neg n1, if_pos n2, if_pos n3, ← e]
            · have n2 : ¬ (y = y0 ∧ dstX ≤ x ∧ x < dstX + cw) := fun hh => h2 hh.1
              rw [if_neg n2]
              by_cases h3 : dstY0 + (row + 1 - row0) ≤ y ∧ y < dstY0 + (row + 1 - row0) + n
              · have n3 : (dstX ≤ x ∧ x < dstX + (t.width - col0)) ∧
                  (dstY0 + (row - row0) ≤ y ∧ y < dstY0 + (row - row0) + (n + 1)) := ⟨h1, by omega⟩
                rw [if_pos ⟨h1, h3⟩, if_pos n3]
              · have n3 : ¬ ((dstX ≤ x ∧ x < dstX + (t.width - col0)) ∧
                  (dstY0 + (row - row0) ≤ y ∧ y < dstY0 + (row - row0) + (n + 1))) := by omega
                rw [if_neg (fun hh => h3 hh.2), if_neg n3]
          · have n2 : ¬ (y = y0 ∧ dstX ≤ x ∧ x < dstX + cw) := fun hh => h1 ⟨hh.2.1, hxcw.mp hh.2.2⟩
            rw [if_neg n2, if_neg (fun hh => h1 hh.1), if_neg (fun hh => h1 hh.1)]

theorem compositeTile_spec (dpr : Nat) (sx sy : ℚ) (g : Target) (buf : List Nat) (t : CachedTile) (ht : TileOk t)
    (hw : Words buf) (hf : Fits g buf) :
    ∃ buf', compositeTile dpr sx sy g buf t = some buf' ∧ buf'.length = buf.length ∧ Words buf' ∧
      (∀ j, Outside g j → buf'.getD j 0 = buf.getD j 0) ∧
      ∀ x y, x < g.width → y < g.height →
        buf'.getD (at' g x y) 0 = over dpr sx sy x y (buf.getD (at' g x y) 0) t := by
  obtain ⟨p, hp⟩ : ∃ p, p = tilePos t dpr sx sy := ⟨_, rfl⟩
  simp only [compositeTile, over, ← hp]
  by_cases hcl : p.1 ≥ g.width ∨ p.2 ≥ g.height ∨ p.1 + t.width ≤ 0 ∨ p.2 + t.height ≤ 0
  · rw [if_pos hcl]
    refine ⟨buf, rfl, rfl, hw, fun _ _ => rfl, fun x y hx hy => ?_⟩
    rw [if_neg]
    rw [Covers]; omega
  · rw [if_neg hcl]
    obtain ⟨buf', h1, h2, h3, h4, h5⟩ := rowLoop_spec t ht g (max (-p.1) 0).toNat (max (-p.2) 0).toNat
      (max p.1 0).toNat (max p.2 0).toNat (by omega) (by omega) (t.height - (max (-p.2) 0).toNat) (max (-p.2) 0).toNat
      buf hw hf le_rfl (by omega)
    refine ⟨buf', h1, h2, h3, h4, fun x y hx hy => ?_⟩
    rw [h5 x y hx hy]
    by_cases hcov : Covers t p.1 p.2 x y
    · rw [if_pos hcov]
      rw [Covers] at hcov
      rw [if_pos (by omega), ov, pixelOf]
      have e1 : (max (-p.2) 0).toNat + (y - (max p.2 0).toNat) = ((y : Int) - p.2).toNat := by omega
      have e2 : (max (-p.1) 0).toNat + (x - (max p.1 0).toNat) = ((x : Int) - p.1).toNat := by omega
      rw [e1, Nat.add_assoc, e2]
    · rw [if_neg hcov, if_neg]
      rw [Covers] at hcov
      omega

end Verif.Composite
