import Mathlib.Data.List.Induction
import Mathlib.Data.List.Forall2
import Verif.TileBudget.Props

/-! # C73: scrolling and the tile budget -/
namespace Verif.TileBudget
open Verif.Map Verif.Layers

section
variable (val : Nat → ℚ)

theorem needs_iff (s : State) (scrollY vpH pageHeight : ℚ) (lo hi : ℚ)
    (hw : clampToPage (refreshWindow scrollY vpH) pageHeight = (lo, hi)) :
    needsRerender s scrollY vpH pageHeight = false ↔
      (∀ r ∈ s.evicted, ¬ (r.y < hi ∧ lo < r.y + r.height)) ∧
      ∀ a b, s.rastered = some (a, b) → a - 1 / 2 ≤ lo ∧ hi ≤ b + 1 / 2 := by
  simp only [needsRerender, hw]
  have h1 : (s.evicted.any fun r => decide (r.y < hi) && decide (r.y + r.height > lo)) = true ↔
      ∃ r ∈ s.evicted, r.y < hi ∧ lo < r.y + r.height := by
    rw [List.any_eq_true]
    constructor
    · rintro ⟨r, hr, h⟩
      rw [Bool.and_eq_true, decide_eq_true_iff, decide_eq_true_iff] at h
      exact ⟨r, hr, h⟩
    · rintro ⟨r, hr, h⟩
      refine ⟨r, hr, ?_⟩
      rw [Bool.and_eq_true, decide_eq_true_iff, decide_eq_true_iff]
      exact h
  by_cases h : ∃ r ∈ s.evicted, r.y < hi ∧ lo < r.y + r.height
  · rw [if_pos (h1.mpr h)]
    obtain ⟨r, hr, h⟩ := h
    constructor
    · intro hh; simp at hh
    · intro hh; exact absurd h (hh.1 r hr)
  · rw [if_neg (fun hh => h (h1.mp hh))]
    have h2 : ∀ r ∈ s.evicted, ¬ (r.y < hi ∧ lo < r.y + r.height) := fun r hr hh => h ⟨r, hr, hh⟩
    cases hr : s.rastered with
    | none => simp only [true_iff]; exact ⟨h2, by simp⟩
    | some w =>
      simp only [Bool.or_eq_false_iff, decide_eq_false_iff_not, not_lt, gt_iff_lt]
      constructor
      · intro hh
        refine ⟨h2, ?_⟩
        intro a b hab
        cases hab
        exact hh
      · rintro ⟨_, hh⟩
        exact hh w.1 w.2 rfl

theorem clamp_eq (scrollY vpH pageHeight : ℚ) : clampToPage (refreshWindow scrollY vpH) pageHeight =
    (max (scrollY - 1 / 2 * vpH) 0, max (min (scrollY + vpH + 1 / 2 * vpH) (max pageHeight 0)) 0) := rfl

theorem seen_window {scrollY vpH pageHeight y : ℚ} (h : Seen scrollY vpH pageHeight y) :
    max (scrollY - 1 / 2 * vpH) 0 ≤ y ∧ y < max (min (scrollY + vpH + 1 / 2 * vpH) (max pageHeight 0)) 0 := by
  obtain ⟨h1, h2, h3, h4⟩ := h
  constructor
  · exact max_le (by linarith) h1
  · exact lt_of_lt_of_le (lt_min (by linarith) (lt_of_lt_of_le h2 (le_max_left _ _))) (le_max_left _ _)

/-- C73: when no new raster is asked for, no row on screen belongs to an evicted rectangle, and all of them are in
the rastered window (to within half a pixel). -/
theorem C73_no_rerender (s : State) (scrollY vpH pageHeight : ℚ)
    (h : needsRerender s scrollY vpH pageHeight = false) (y : ℚ) (hy : Seen scrollY vpH pageHeight y) :
    (∀ r ∈ s.evicted, ¬ InRows r y) ∧ ∀ a b, s.rastered = some (a, b) → a - 1 / 2 ≤ y ∧ y ≤ b + 1 / 2 := by
  have h1 := (needs_iff s scrollY vpH pageHeight _ _ (clamp_eq scrollY vpH pageHeight)).mp h
  obtain ⟨hlo, hhi⟩ := seen_window hy
  constructor
  · rintro r hr ⟨h2, h3⟩
    exact h1.1 r hr ⟨lt_of_le_of_lt h2 hhi, lt_of_le_of_lt hlo h3⟩
  · intro a b hab
    obtain ⟨h2, h3⟩ := h1.2 a b hab
    exact ⟨h2.trans hlo, hhi.le.trans h3⟩

theorem evicted_step (s : State) (op : Op) (h1 : op ≠ .reset) (h2 : op ≠ .fullRaster) (r : Rect) (hr : r ∈ s.evicted) :
    r ∈ (step val s op).evicted := by
  cases op with
  | reset => exact absurd rfl h1
  | fullRaster => exact absurd rfl h2
  | window => exact hr
  | touch => exact hr
  | enforce ts cs y h b => exact ((C55_remembered val s ts cs y h b).1 r).mpr (Or.inl hr)

theorem evicted_run (ops : List Op) (s : State) (h1 : Op.reset ∉ ops) (h2 : Op.fullRaster ∉ ops) (r : Rect)
    (hr : r ∈ s.evicted) : r ∈ (run val s ops).evicted := by
  induction ops generalizing s with
  | nil => exact hr
  | cons op ops ih =>
    simp only [List.mem_cons, not_or] at h1 h2
    exact ih _ h1.2 h2.2 (evicted_step val s op (Ne.symm h1.1) (Ne.symm h2.1) r hr)

/-- C73: after any history, if a position was evicted and nothing has been rastered anew since, then scrolling to where
it would be seen asks for a new raster. -/
theorem C73_evicted_is_redrawn (pre post : List Op) (tiles : List Tile) (cache : List CacheEntry) (sy vh : ℚ)
    (budget : Nat) (k : Key) (hk : Gone tiles cache (enforce val (run val fresh pre) tiles cache sy vh budget) k)
    (h1 : Op.reset ∉ post) (h2 : Op.fullRaster ∉ post) (scrollY vpH pageHeight y : ℚ)
    (hy : Seen scrollY vpH pageHeight y) (hr : InRows (rectAt val tiles cache k) y) :
    needsRerender (run val fresh (pre ++ .enforce tiles cache sy vh budget :: post)) scrollY vpH pageHeight = true := by
  by_contra hn
  have hf := (C73_no_rerender _ scrollY vpH pageHeight (by simpa using hn) y hy).1 (rectAt val tiles cache k)
  refine hf ?_ hr
  rw [run, List.foldl_append, List.foldl_cons]
  refine evicted_run val post _ h1 h2 _ ?_
  exact ((C55_remembered val (run val fresh pre) tiles cache sy vh budget).1 _).mpr (Or.inr ⟨k, hk, rfl⟩)

theorem rastered_step (s : State) (op : Op) (h1 : op ≠ .reset) (h2 : ∀ a b c, op ≠ .window a b c) :
    (step val s op).rastered = s.rastered := by
  cases op with
  | reset => exact absurd rfl h1
  | fullRaster => rfl
  | window a b c => exact absurd rfl (h2 a b c)
  | touch => rfl
  | enforce ts cs y h b => exact (C55_remembered val s ts cs y h b).2.2.2

theorem rastered_run (ops : List Op) (s : State) (h1 : Op.reset ∉ ops) (h2 : ∀ a b c, Op.window a b c ∉ ops) :
    (run val s ops).rastered = s.rastered := by
  induction ops generalizing s with
  | nil => rfl
  | cons op ops ih =>
    simp only [List.mem_cons, not_or] at h1 h2
    rw [run, List.foldl_cons]
    exact (ih _ h1.2 fun a b c => (h2 a b c).2).trans
      (rastered_step val s op (Ne.symm h1.1) fun a b c => Ne.symm (h2 a b c).1)

/-- C73: after any history, scrolling to a row more than a viewport (and half a pixel) away from what was on screen
when the raster window was last noted asks for a new raster. -/
theorem C73_unrastered_is_drawn (pre post : List Op) (y0 vh page : ℚ) (h1 : Op.reset ∉ post)
    (h2 : ∀ a b c, Op.window a b c ∉ post) (scrollY vpH pageHeight y : ℚ) (hvh : 0 ≤ vh) (hy0 : 0 ≤ y0)
    (hy : Seen scrollY vpH pageHeight y) (hout : y < y0 - vh - 1 / 2 ∨ y0 + 2 * vh + 1 / 2 < y) :
    needsRerender (run val fresh (pre ++ .window y0 vh page :: post)) scrollY vpH pageHeight = true := by
  by_contra hn
  have hf := (C73_no_rerender _ scrollY vpH pageHeight (by simpa using hn) y hy).2
  rw [run, List.foldl_append, List.foldl_cons] at hf
  have hr := rastered_run val post (step val (pre.foldl (step val) fresh) (.window y0 vh page)) h1 h2
  have := hf _ _ (hr.trans rfl)
  obtain ⟨h3, h4⟩ := this
  simp only [rasterWindow] at h3 h4
  have h5 : y0 - 1 * vh ≤ max (y0 - 1 * vh) 0 := le_max_left _ _
  have h6 : max (min (y0 + vh + 1 * vh) (max page 0)) 0 ≤ y0 + vh + 1 * vh :=
    max_le (min_le_left _ _) (by linarith)
  rcases hout with h | h
  · linarith
  · linarith

/-- C73: nothing is redrawn in a loop.  After a full raster whose window is noted and an eviction for the same scroll
position, scrolling by up to half a viewport asks for nothing. -/
theorem C73_no_thrash (s : State) (tiles : List Tile) (cache : List CacheEntry) (y0 vpH page : ℚ) (budget : Nat)
    (hv : 0 ≤ vpH) (scrollY : ℚ) (hy : 0 ≤ scrollY) (hd : |scrollY - y0| ≤ vpH / 2) :
    needsRerender (run val s [.fullRaster, .window y0 vpH page, .enforce tiles cache y0 vpH budget]) scrollY vpH page
      = false := by
  obtain ⟨hd1, hd2⟩ := abs_le.mp hd
  rw [needs_iff _ scrollY vpH page _ _ (clamp_eq scrollY vpH page)]
  simp only [run, List.foldl_cons, List.foldl_nil, step]
  obtain ⟨s1, hs1⟩ : ∃ s1, s1 = noteRasteredWindow (noteFullRaster s) y0 vpH page := ⟨_, rfl⟩
  rw [← hs1]
  have hrem := C55_remembered val s1 tiles cache y0 vpH budget
  constructor
  · rintro r hr ⟨h1, h2⟩
    rcases (hrem.1 r).mp hr with hr | ⟨k, hk, rfl⟩
    · rw [hs1] at hr; simp [noteRasteredWindow, noteFullRaster] at hr
    · obtain ⟨a, own, killed, hi, h⟩ := enforce_cut val s1 tiles cache y0 vpH budget
      rw [h.gone] at hk
      obtain ⟨c, hc, rfl⟩ := List.mem_map.mp hk
      have hcand := h.cand c hc
      apply hcand.free
      obtain ⟨i, hi1, hi2⟩ := (key_iff val).mpr hcand.key
      cases hfind : (items val tiles cache).find? (fun i => i.key = c.key) with
      | none => exact absurd hi2 (by simpa using List.find?_eq_none.mp hfind i hi1)
      | some j =>
        refine (keep_iff val).mp ⟨j, List.mem_of_find?_eq_some hfind, by simpa using List.find?_some hfind, ?_⟩
        rw [keepItem, Bool.or_eq_true, inBand_iff, find_items val hfind]
        right
        have h3 : max (min (scrollY + vpH + 1 / 2 * vpH) (max page 0)) 0 ≤ scrollY + vpH + 1 / 2 * vpH :=
          max_le (min_le_left _ _) (by linarith)
        have h4 : scrollY - 1 / 2 * vpH ≤ max (scrollY - 1 / 2 * vpH) 0 := le_max_left _ _
        constructor
        · linarith
        · linarith
  · intro a b hab
    rw [hrem.2.2.2, hs1] at hab
    simp only [noteRasteredWindow, clampToPage, rasterWindow, Option.some.injEq, Prod.mk.injEq] at hab
    obtain ⟨rfl, rfl⟩ := hab
    constructor
    · have : max (y0 - 1 * vpH) 0 ≤ max (scrollY - 1 / 2 * vpH) 0 := max_le_max (by linarith) le_rfl
      linarith
    · have : max (min (scrollY + vpH + 1 / 2 * vpH) (max page 0)) 0 ≤ max (min (y0 + vpH + 1 * vpH) (max page 0)) 0 :=
        max_le_max (min_le_min (by linarith) le_rfl) le_rfl
      linarith

/-- C73: when the noted window takes in the whole page, no scroll position asks for a new raster. -/
theorem C73_whole_page (s : State) (y0 vpH page : ℚ) (htop : y0 - vpH ≤ 0) (hbot : page ≤ y0 + 2 * vpH)
    (scrollY : ℚ) : needsRerender (run val s [.fullRaster, .window y0 vpH page]) scrollY vpH page = false := by
  rw [needs_iff _ scrollY vpH page _ _ (clamp_eq scrollY vpH page)]
  simp only [run, List.foldl_cons, List.foldl_nil, step]
  refine ⟨by simp [noteRasteredWindow, noteFullRaster], ?_⟩
  intro a b hab
  simp only [noteRasteredWindow, clampToPage, rasterWindow, Option.some.injEq, Prod.mk.injEq] at hab
  obtain ⟨rfl, rfl⟩ := hab
  constructor
  · have h1 : max (y0 - 1 * vpH) 0 ≤ 0 := max_le (by linarith) le_rfl
    have h2 : (0 : ℚ) ≤ max (scrollY - 1 / 2 * vpH) 0 := le_max_right _ _
    linarith
  · have h1 : max (min (scrollY + vpH + 1 / 2 * vpH) (max page 0)) 0 ≤ max page 0 :=
      max_le (min_le_right _ _) (le_max_right _ _)
    have h2 : max page 0 ≤ max (min (y0 + vpH + 1 * vpH) (max page 0)) 0 := by
      apply max_le
      · by_cases hp : page ≤ 0
        · exact hp.trans (le_max_right _ _)
        · exact (le_min (by linarith) (le_max_left _ _)).trans (le_max_left _ _)
      · exact le_max_right _ _
    linarith

/-- C73: after a reset nothing is asked for and nothing counts as used. -/
theorem C73_reset (s : State) (scrollY vpH page : ℚ) (k : Key) :
    needsRerender (step val s .reset) scrollY vpH page = false ∧ usedAt (step val s .reset) k = 0 := by
  simp [step, reset, needsRerender, usedAt, look]

/-! ## What is put off -/

/-- C73: a tile is put off exactly when it has to be drawn, scrolls with the page, and lies more than a viewport away
from what is seen; nothing else of it changes, and the count is the number of them. -/
theorem C73_deferred (tiles : List RasterTile) (scrollY vpH : ℚ) :
    List.Forall₂ (fun t t' : RasterTile =>
      (t.state = .dirty ∧ t.anchor = .scroll ∧ ¬ Near t.rect.y t.rect.height scrollY vpH ∧
        t' = { t with state := .deferred }) ∨
      ((t.state ≠ .dirty ∨ t.anchor ≠ .scroll ∨ Near t.rect.y t.rect.height scrollY vpH) ∧ t' = t))
      tiles (deferTiles tiles scrollY vpH).1 ∧
    (deferTiles tiles scrollY vpH).2 + (tiles.filter fun t => t.state = .deferred).length =
      ((deferTiles tiles scrollY vpH).1.filter fun t => t.state = .deferred).length := by
  have key : ∀ t, deferred scrollY vpH t = true ↔
      t.state = .dirty ∧ t.anchor = .scroll ∧ ¬ Near t.rect.y t.rect.height scrollY vpH := by
    intro t
    simp only [deferred, rasterWindow, Near, gt_iff_lt]
    have e : (t.rect.y < scrollY + vpH + 1 * vpH ∧ scrollY - 1 * vpH < t.rect.y + t.rect.height) ↔
        (t.rect.y < scrollY + 2 * vpH ∧ scrollY - vpH < t.rect.y + t.rect.height) := by
      constructor
      · rintro ⟨h1, h2⟩; exact ⟨by linarith, by linarith⟩
      · rintro ⟨h1, h2⟩; exact ⟨by linarith, by linarith⟩
    by_cases h1 : t.state = .dirty
    · by_cases h2 : t.anchor = .scroll
      · by_cases h3 : t.rect.y < scrollY + vpH + 1 * vpH ∧ scrollY - 1 * vpH < t.rect.y + t.rect.height
        · rw [if_neg (not_not.mpr h1), if_neg (not_not.mpr h2), if_pos h3]
          simp [e.mp h3]
        · rw [if_neg (not_not.mpr h1), if_neg (not_not.mpr h2), if_neg h3]
          exact ⟨fun _ => ⟨h1, h2, fun hh => h3 (e.mpr hh)⟩, fun _ => rfl⟩
      · rw [if_neg (not_not.mpr h1), if_pos h2]; simp [h2]
    · rw [if_pos h1]; simp [h1]
  induction tiles with
  | nil => exact ⟨List.Forall₂.nil, rfl⟩
  | cons t r ih =>
    simp only [deferTiles, List.map_cons, List.filter_cons] at ih ⊢
    by_cases hd : deferred scrollY vpH t = true
    · have hk := (key t).mp hd
      refine ⟨List.Forall₂.cons (Or.inl ⟨hk.1, hk.2.1, hk.2.2, by rw [if_pos hd]⟩) ih.1, ?_⟩
      have := ih.2
      simp only [hd, if_true, hk.1, List.length_cons, decide_true, reduceCtorEq, decide_false, Bool.false_eq_true,
        if_false]
      omega
    · refine ⟨List.Forall₂.cons (Or.inr ⟨?_, by rw [if_neg hd]⟩) ih.1, ?_⟩
      · have hk := fun hh => hd ((key t).mpr hh)
        by_cases h1 : t.state = .dirty
        · by_cases h2 : t.anchor = .scroll
          · exact Or.inr (Or.inr (by by_contra h3; exact hk ⟨h1, h2, h3⟩))
          · exact Or.inr (Or.inl h2)
        · exact Or.inl h1
      · have := ih.2
        simp only [hd, if_false, Bool.false_eq_true]
        by_cases h1 : t.state = .deferred
        · simp only [h1, decide_true, if_true, List.length_cons]; omega
        · simp only [h1, decide_false, Bool.false_eq_true, if_false]; omega

/-- C73: a tile that has to be drawn and is on screen, or does not scroll, is never put off. -/
theorem C73_visible_not_deferred (tiles : List RasterTile) (scrollY vpH : ℚ) (t : RasterTile) (ht : t ∈ tiles)
    (hon : t.anchor ≠ .scroll ∨ ∃ y, scrollY ≤ y ∧ y < scrollY + vpH ∧ InRows t.rect y) :
    t ∈ (deferTiles tiles scrollY vpH).1 := by
  simp only [deferTiles, List.mem_map]
  refine ⟨t, ht, ?_⟩
  rw [if_neg]
  simp only [deferred, rasterWindow, gt_iff_lt]
  rcases hon with h | ⟨y, h1, h2, h3, h4⟩
  · split
    · simp
    · simp
  · have h5 : t.rect.y < scrollY + vpH + 1 * vpH ∧ scrollY - 1 * vpH < t.rect.y + t.rect.height :=
      ⟨by linarith, by linarith⟩
    split
    · simp
    · split
      · simp
      · simp

/-! ## What was used last -/

theorem visible_iff (t : Tile) (sx sy vpW vpH : ℚ) : visible val t sx sy vpW vpH = true ↔ OnScreen val t sx sy vpW vpH := by
  have hp : anchoredPos (val t.key.1) (val t.key.2.1) sx sy t.anchor = screenPos val t sx sy := by
    cases h : t.anchor <;> simp [screenPos, anchoredPos, h]
  rw [visible, hp]
  simp only [OnScreen]
  rw [Bool.and_eq_true, Bool.and_eq_true, Bool.and_eq_true, decide_eq_true_iff, decide_eq_true_iff, decide_eq_true_iff,
    decide_eq_true_iff, and_assoc, and_assoc]

theorem touch_look (tiles : List Tile) (sx sy vpW vpH : ℚ) (tick : Nat) (m : List (Key × Nat)) (k : Key) :
    ((∃ t ∈ tiles, t.key = k ∧ OnScreen val t sx sy vpW vpH) →
      look (tiles.foldl (fun m t => if visible val t sx sy vpW vpH then put m t.key tick else m) m) k = some tick) ∧
    ((¬ ∃ t ∈ tiles, t.key = k ∧ OnScreen val t sx sy vpW vpH) →
      look (tiles.foldl (fun m t => if visible val t sx sy vpW vpH then put m t.key tick else m) m) k = look m k) := by
  induction tiles using List.reverseRecOn with
  | nil => simp
  | append_singleton ts t ih =>
    rw [List.foldl_append, List.foldl_cons, List.foldl_nil]
    by_cases hv : visible val t sx sy vpW vpH = true
    · rw [if_pos hv, look_put]
      by_cases hk : t.key = k
      · rw [if_pos hk]
        refine ⟨fun _ => rfl, fun hh => absurd ⟨t, by simp, hk, (visible_iff val t sx sy vpW vpH).mp hv⟩ hh⟩
      · rw [if_neg hk]
        constructor
        · rintro ⟨u, hu, hu1, hu2⟩
          rcases List.mem_append.mp hu with hu | hu
          · exact ih.1 ⟨u, hu, hu1, hu2⟩
          · rw [List.mem_singleton.mp hu] at hu1; exact absurd hu1 hk
        · intro hh
          exact ih.2 fun ⟨u, hu, h⟩ => hh ⟨u, List.mem_append_left _ hu, h⟩
    · rw [if_neg hv]
      constructor
      · rintro ⟨u, hu, hu1, hu2⟩
        rcases List.mem_append.mp hu with hu | hu
        · exact ih.1 ⟨u, hu, hu1, hu2⟩
        · rw [List.mem_singleton.mp hu] at hu2; exact absurd ((visible_iff val t sx sy vpW vpH).mpr hu2) hv
      · intro hh
        exact ih.2 fun ⟨u, hu, h⟩ => hh ⟨u, List.mem_append_left _ hu, h⟩

theorem used_le_tick (s : State) (op : Op) (h : ∀ k, usedAt s k ≤ s.tick) (k : Key) :
    usedAt (step val s op) k ≤ (step val s op).tick := by
  cases op with
  | reset => simp [step, reset, usedAt, look]
  | fullRaster => exact h k
  | window => exact h k
  | touch ts sx sy w hh =>
    have := touch_look val ts sx sy w hh (s.tick + 1) s.lastUsed k
    simp only [step, touchComposited, usedAt]
    by_cases hv : ∃ t ∈ ts, t.key = k ∧ OnScreen val t sx sy w hh
    · rw [this.1 hv]; simp
    · rw [this.2 hv]; exact (h k).trans (Nat.le_succ _)
  | enforce ts cs y hh b =>
    have := C55_remembered val s ts cs y hh b
    simp only [step, usedAt]
    rw [this.2.1, this.2.2.1]
    split
    · exact h k
    · simp

/-- C73: after any history and a frame, the positions on screen were used last and all others before that. -/
theorem C73_recent (pre : List Op) (tiles : List Tile) (sx sy vpW vpH : ℚ) :
    let s := run val fresh (pre ++ [.touch tiles sx sy vpW vpH])
    (∀ k, (∃ t ∈ tiles, t.key = k ∧ OnScreen val t sx sy vpW vpH) → usedAt s k = s.tick) ∧
    ∀ k, (¬ ∃ t ∈ tiles, t.key = k ∧ OnScreen val t sx sy vpW vpH) →
      usedAt s k < s.tick ∧ usedAt s k = usedAt (run val fresh pre) k := by
  have hinv : ∀ (ops : List Op) (k : Key), usedAt (run val fresh ops) k ≤ (run val fresh ops).tick := by
    intro ops
    induction ops using List.reverseRecOn with
    | nil => intro k; simp [run, fresh, usedAt, look]
    | append_singleton ops op ih =>
      intro k
      rw [run, List.foldl_append, List.foldl_cons, List.foldl_nil]
      exact used_le_tick val _ op ih k
  intro s
  have hs : s = touchComposited val (run val fresh pre) tiles sx sy vpW vpH := by
    simp only [s, run, List.foldl_append, List.foldl_cons, List.foldl_nil, step]
  rw [hs]
  simp only [touchComposited, usedAt]
  constructor
  · intro k hk
    rw [(touch_look val tiles sx sy vpW vpH _ _ k).1 hk]; rfl
  · intro k hk
    rw [(touch_look val tiles sx sy vpW vpH _ _ k).2 hk]
    exact ⟨Nat.lt_succ_of_le (hinv pre k), rfl⟩

end

/-! ## A case: a page of 5000 rows seen through 100 -/

def exOps : List Op := [.touch exTiles 0 0 100 100, .window 0 100 5000, .enforce exTiles exCache 0 100 250]

/-- The hypotheses of `C73_evicted_is_redrawn` are met, and its conclusion is not always true. -/
example : needsRerender (run exVal fresh exOps) 2950 100 5000 = true ∧
    needsRerender (run exVal fresh exOps) 20 100 5000 = false ∧
    needsRerender (run exVal fresh (exOps ++ [.fullRaster, .window 2950 100 5000])) 2950 100 5000 = false := by
  decide +kernel

example : Seen 2950 100 5000 3005 ∧ InRows (rectAt exVal exTiles exCache (0, 3000, 0)) 3005 := by
  simp only [Seen, InRows, rectAt]
  decide +kernel

example : Gone exTiles exCache (enforce exVal (run exVal fresh (exOps.take 2)) exTiles exCache 0 100 250) (0, 3000, 0) := by
  rw [Gone]; decide +kernel

example : (deferTiles [⟨0, .dirty, .scroll, ⟨0, 0, 10, 10⟩⟩, ⟨1, .dirty, .scroll, ⟨0, 300, 10, 10⟩⟩,
    ⟨2, .dirty, .fixed, ⟨0, 300, 10, 10⟩⟩] 0 100).2 = 1 := by decide +kernel

end Verif.TileBudget
