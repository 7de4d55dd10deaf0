import Verif.Tiler.Spec
import Mathlib.Tactic.Linarith
import Mathlib.Data.List.Nodup
import Mathlib.Algebra.Order.Field.Basic

/-! # C132, C133: tiles -/

namespace Verif.Tiler

/-! ## One dimension -/

theorem floorNat_cast {q : ℚ} (h : 0 ≤ q) : ((floorNat q : ℕ) : ℚ) = ((⌊q⌋ : ℤ) : ℚ) := by
  unfold floorNat
  have : (0 : ℤ) ≤ ⌊q⌋ := Int.floor_nonneg.2 h
  have e : ((⌊q⌋.toNat : ℕ) : ℤ) = ⌊q⌋ := Int.toNat_of_nonneg this
  exact_mod_cast congrArg (fun z : ℤ => (z : ℚ)) e

theorem cell_in {w p : ℚ} (hw : 0 < w) (hp : 0 ≤ p) :
    (floorNat (p / w) : ℚ) * w ≤ p ∧ p < (floorNat (p / w) : ℚ) * w + w := by
  rw [floorNat_cast (div_nonneg hp hw.le)]
  have h1 := Int.floor_le (p / w)
  have h2 := Int.lt_floor_add_one (p / w)
  rw [le_div_iff₀ hw] at h1
  rw [div_lt_iff₀ hw] at h2
  exact ⟨h1, by linarith [h2, add_mul ((⌊p / w⌋ : ℤ) : ℚ) 1 w]⟩

theorem cell_unique {w p : ℚ} (hw : 0 < w) {k : ℕ} (h1 : (k : ℚ) * w ≤ p) (h2 : p < (k : ℚ) * w + w) :
    k = floorNat (p / w) := by
  have : ⌊p / w⌋ = (k : ℤ) := by
    rw [Int.floor_eq_iff]
    refine ⟨?_, ?_⟩
    · rw [le_div_iff₀ hw]; exact_mod_cast h1
    · rw [div_lt_iff₀ hw, add_mul, one_mul]; exact_mod_cast h2
  unfold floorNat
  rw [this, Int.toNat_natCast]

theorem cell_lt {w p b : ℚ} (hw : 0 < w) (hp : 0 ≤ p) (h : p < b) : floorNat (p / w) < ceilNat (b / w) := by
  have h0 : (0 : ℤ) ≤ ⌊p / w⌋ := Int.floor_nonneg.2 (div_nonneg hp hw.le)
  have h1 : ⌊p / w⌋ < ⌈b / w⌉ := by
    rw [Int.floor_lt]
    exact lt_of_lt_of_le (div_lt_div_of_pos_right h hw) (Int.le_ceil _)
  unfold floorNat ceilNat
  omega

theorem cell_le {w a p : ℚ} (hw : 0 < w) (h : a ≤ p) : floorNat (a / w) ≤ floorNat (p / w) :=
  Int.toNat_le_toNat (Int.floor_le_floor (div_le_div_of_nonneg_right h hw.le))

/-! ## The bounds of a layer -/

def Covers (b : Option Bounds) (m : Rect) : Prop :=
  ∃ b', b = some b' ∧ b'.minX ≤ m.x ∧ b'.minY ≤ m.y ∧ m.x + m.width ≤ b'.maxX ∧ m.y + m.height ≤ b'.maxY

theorem grow_keeps (i : Input) (b : Option Bounds) (e : Nat) (m : Rect) (h : Covers b m) : Covers (grow i b e) m := by
  obtain ⟨b', rfl, h1, h2, h3, h4⟩ := h
  unfold grow
  cases i.box e with
  | none => exact ⟨b', rfl, h1, h2, h3, h4⟩
  | some m' =>
    simp only
    split
    · exact ⟨_, rfl, le_trans (min_le_left _ _) h1, le_trans (min_le_left _ _) h2, le_trans h3 (le_max_left _ _),
        le_trans h4 (le_max_left _ _)⟩
    · exact ⟨b', rfl, h1, h2, h3, h4⟩

theorem grow_adds (i : Input) (b : Option Bounds) (e : Nat) (m : Rect) (hm : i.box e = some m) (h1 : 0 < m.width)
    (h2 : 0 < m.height) : Covers (grow i b e) m := by
  unfold grow
  rw [hm]
  simp only
  rw [if_pos ⟨h1, h2⟩]
  cases b with
  | none => exact ⟨_, rfl, le_refl _, le_refl _, le_refl _, le_refl _⟩
  | some b => exact ⟨_, rfl, min_le_right _ _, min_le_right _ _, le_max_right _ _, le_max_right _ _⟩

theorem fold_covers (i : Input) (es : List Nat) (b : Option Bounds) (e : Nat) (m : Rect) (he : e ∈ es)
    (hm : i.box e = some m) (h1 : 0 < m.width) (h2 : 0 < m.height) : Covers (es.foldl (grow i) b) m := by
  have keep : ∀ (es : List Nat) (b : Option Bounds), Covers b m → Covers (es.foldl (grow i) b) m := by
    intro es
    induction es with
    | nil => intro b h; exact h
    | cons x es ih => intro b h; exact ih _ (grow_keeps i b x m h)
  induction es generalizing b with
  | nil => cases he
  | cons x es ih =>
    rcases List.mem_cons.1 he with rfl | he
    · exact keep es _ (grow_adds i b e m hm h1 h2)
    · exact ih _ he

/-! ## Cells and tiles -/

theorem mem_upto {a b x : Nat} : x ∈ upto a b ↔ a ≤ x ∧ x < b := by
  unfold upto
  rw [List.mem_range'_1]
  omega

theorem mem_cells {rs re cs ce : Nat} {c : Nat × Nat} :
    c ∈ cells rs re cs ce ↔ (rs ≤ c.1 ∧ c.1 < re) ∧ cs ≤ c.2 ∧ c.2 < ce := by
  unfold cells
  rw [List.mem_flatMap]
  constructor
  · rintro ⟨y, hy, hc⟩
    obtain ⟨x, hx, rfl⟩ := List.mem_map.1 hc
    exact ⟨mem_upto.1 hy, mem_upto.1 hx⟩
  · rintro ⟨h1, h2⟩
    exact ⟨c.1, mem_upto.2 h1, List.mem_map.2 ⟨c.2, mem_upto.2 h2, rfl⟩⟩

theorem nodup_cells (rs re cs ce : Nat) : (cells rs re cs ce).Nodup := by
  unfold cells
  rw [List.nodup_flatMap]
  refine ⟨fun y _ => ?_, ?_⟩
  · exact List.Nodup.map (fun a b h => (Prod.mk.inj h).2) (List.nodup_range' ..)
  · refine (List.nodup_range' .. : (upto rs re).Nodup).imp ?_
    intro a b hab x ha hb
    obtain ⟨_, _, rfl⟩ := List.mem_map.1 ha
    obtain ⟨_, _, he⟩ := List.mem_map.1 hb
    exact hab (Prod.mk.inj he).1.symm

theorem mem_newTiles (i : Input) (lid : Nat) (cs : List (Nat × Nat)) (n : Nat) (t : Tile)
    (h : t ∈ newTiles i lid n cs) : ∃ c ∈ cs, ∃ id, t = newTile i lid id c := by
  induction cs generalizing n with
  | nil => cases h
  | cons c cs ih =>
    rcases List.mem_cons.1 h with rfl | h
    · exact ⟨c, by simp, n, rfl⟩
    · obtain ⟨c', hc, r⟩ := ih _ h
      exact ⟨c', List.mem_cons_of_mem _ hc, r⟩

theorem newTiles_of (i : Input) (lid : Nat) (cs : List (Nat × Nat)) (n : Nat) (c : Nat × Nat) (h : c ∈ cs) :
    ∃ id, newTile i lid id c ∈ newTiles i lid n cs := by
  induction cs generalizing n with
  | nil => cases h
  | cons c' cs ih =>
    rcases List.mem_cons.1 h with rfl | h
    · exact ⟨n, List.mem_cons_self⟩
    · obtain ⟨id, hid⟩ := ih (n + 1) h
      exact ⟨id, List.mem_cons_of_mem _ hid⟩

theorem newTiles_inj (i : Input) (lid : Nat) (cs : List (Nat × Nat)) (n : Nat) (hd : cs.Nodup) (c : Nat × Nat) (a b : Nat)
    (h1 : newTile i lid a c ∈ newTiles i lid n cs) (h2 : newTile i lid b c ∈ newTiles i lid n cs)
    (hw : 0 < i.tileW) (hh : 0 < i.tileH) : a = b := by
  have rect : ∀ c c' a a', newTile i lid a c = newTile i lid a' c' → a = a' ∧ c = c' := by
    intro c c' a a' h
    unfold newTile at h
    simp only [Tile.mk.injEq, Rect.mk.injEq, true_and, and_true] at h
    obtain ⟨h0, hx, hy⟩ := h
    refine ⟨h0, Prod.ext ?_ ?_⟩
    · exact_mod_cast mul_right_cancel₀ hh.ne' hy
    · exact_mod_cast mul_right_cancel₀ hw.ne' hx
  induction cs generalizing n with
  | nil => cases h1
  | cons x cs ih =>
    rw [List.nodup_cons] at hd
    have mem : ∀ a, newTile i lid a c ∈ newTiles i lid (n + 1) cs → c ∈ cs := by
      intro a h
      obtain ⟨c', hc, id, e⟩ := mem_newTiles i lid cs _ _ h
      rw [(rect _ _ _ _ e).2]; exact hc
    rcases List.mem_cons.1 h1 with e1 | e1
    · rcases List.mem_cons.1 h2 with e2 | e2
      · rw [(rect _ _ _ _ e1).1, (rect _ _ _ _ e2).1]
      · exact absurd (mem _ e2) ((rect _ _ _ _ e1).2 ▸ hd.1)
    · rcases List.mem_cons.1 h2 with e2 | e2
      · exact absurd (mem _ e1) ((rect _ _ _ _ e2).2 ▸ hd.1)
      · exact ih _ hd.2 e1 e2

/-- What a tile holds in the end. -/
def content (i : Input) (r : Rect) (es : List Nat) : List Tiled :=
  es.filterMap (fun e => (i.box e).bind (fun m => if touches r m then some (part e m r) else none))

def fill (i : Input) (es : List Nat) (t : Tile) : Tile := { t with elements := t.elements ++ content i t.rect es }

theorem assign_all (i : Input) (es : List Nat) (ts : List Tile) : es.foldl (assign i) ts = ts.map (fill i es) := by
  induction es generalizing ts with
  | nil =>
    rw [List.foldl_nil]
    conv_lhs => rw [← List.map_id ts]
    refine List.map_congr_left fun t _ => ?_
    simp [fill, content]
  | cons e es ih =>
    rw [List.foldl_cons, ih]
    unfold assign
    cases hb : i.box e with
    | none =>
      simp only
      refine List.map_congr_left fun t _ => ?_
      simp [fill, content, hb]
    | some m =>
      simp only [List.map_map]
      refine List.map_congr_left fun t _ => ?_
      simp only [Function.comp]
      by_cases ht : touches t.rect m = true
      · simp [fill, content, hb, ht]
      · simp [fill, content, hb, ht]

theorem inside_new (i : Input) (hw : 0 < i.tileW) (hh : 0 < i.tileH) (lid id : Nat) (c : Nat × Nat) (p : ℚ × ℚ)
    (h1 : 0 ≤ p.1) (h2 : 0 ≤ p.2) :
    Inside (newTile i lid id c).rect p ↔ c = (floorNat (p.2 / i.tileH), floorNat (p.1 / i.tileW)) := by
  unfold Inside newTile
  simp only
  constructor
  · rintro ⟨a, b, d, e⟩
    exact Prod.ext (cell_unique hh d e) (cell_unique hw a b)
  · rintro rfl
    obtain ⟨a, b⟩ := cell_in hw h1
    obtain ⟨d, e⟩ := cell_in hh h2
    exact ⟨a, b, d, e⟩

theorem one_tile (i : Input) (hw : 0 < i.tileW) (hh : 0 < i.tileH) (lid n : Nat) (cs : List (Nat × Nat)) (hd : cs.Nodup)
    (es : List Nat) (p : ℚ × ℚ) (h1 : 0 ≤ p.1) (h2 : 0 ≤ p.2)
    (hc : (floorNat (p.2 / i.tileH), floorNat (p.1 / i.tileW)) ∈ cs) :
    ∃ t, OneTile ((newTiles i lid n cs).map (fill i es)) p t ∧ t.elements = content i t.rect es := by
  obtain ⟨id, hid⟩ := newTiles_of i lid cs n _ hc
  refine ⟨fill i es (newTile i lid id (floorNat (p.2 / i.tileH), floorNat (p.1 / i.tileW))),
    ⟨List.mem_map.2 ⟨_, hid, rfl⟩, (inside_new i hw hh lid id _ p h1 h2).2 rfl, ?_⟩, by simp [fill, newTile]⟩
  intro t' ht' hp
  obtain ⟨t0, ht0, rfl⟩ := List.mem_map.1 ht'
  obtain ⟨c, _, id', rfl⟩ := mem_newTiles i lid cs n t0 ht0
  have := (inside_new i hw hh lid id' c p h1 h2).1 hp
  subst this
  rw [newTiles_inj i lid cs n hd _ _ _ ht0 hid hw hh]

/-! ## The layers -/

theorem loop_mem (i : Input) (next idx : Nat) (ids : List Nat) (lid : Nat) (ts : List Tile)
    (h : (lid, ts) ∈ loop i next idx ids) : lid ∈ ids ∧ ∃ n k, layerTiles i n k lid = some ts := by
  induction ids generalizing next idx with
  | nil => cases h
  | cons x ids ih =>
    unfold loop at h
    cases hl : layerTiles i next idx x with
    | none =>
      rw [hl] at h
      obtain ⟨a, b⟩ := ih _ _ h
      exact ⟨List.mem_cons_of_mem _ a, b⟩
    | some ts' =>
      rw [hl] at h
      rcases List.mem_cons.1 h with h | h
      · cases h; exact ⟨List.mem_cons_self, _, _, hl⟩
      · obtain ⟨a, b⟩ := ih _ _ h
        exact ⟨List.mem_cons_of_mem _ a, b⟩

theorem loop_at (i : Input) (next idx : Nat) (ids : List Nat) (k lid : Nat) (h : ids[k]? = some lid) :
    ∃ n, ∀ ts, layerTiles i n (idx + k) lid = some ts → (lid, ts) ∈ loop i next idx ids := by
  induction ids generalizing next idx k with
  | nil => simp at h
  | cons x ids ih =>
    cases k with
    | zero =>
      simp only [List.getElem?_cons_zero, Option.some.injEq] at h
      subst h
      refine ⟨next, fun ts hts => ?_⟩
      unfold loop
      rw [Nat.add_zero] at hts
      rw [hts]
      exact List.mem_cons_self
    | succ k =>
      rw [List.getElem?_cons_succ] at h
      unfold loop
      cases hl : layerTiles i next idx x with
      | none =>
        obtain ⟨n, hn⟩ := ih next (idx + 1) k h
        refine ⟨n, fun ts hts => hn ts ?_⟩
        rwa [show idx + 1 + k = idx + (k + 1) by omega]
      | some ts' =>
        obtain ⟨n, hn⟩ := ih (next + ts'.length) (idx + 1) k h
        refine ⟨n, fun ts hts => List.mem_cons_of_mem _ (hn ts ?_)⟩
        rwa [show idx + 1 + k = idx + (k + 1) by omega]

theorem layer_form (i : Input) (n k lid : Nat) (l : Layer) (hl : i.layer lid = some l) (ts : List Tile)
    (h : layerTiles i n k lid = some ts) :
    ∃ rs re cs ce, span i k l = some (rs, re, cs, ce) ∧
      ts = (newTiles i lid n (cells rs re cs ce)).map (fill i l.elements) := by
  unfold layerTiles at h
  rw [hl] at h
  simp only at h
  cases hs : span i k l with
  | none => rw [hs] at h; cases h
  | some x =>
    obtain ⟨rs, re, cs, ce⟩ := x
    rw [hs] at h
    simp only at h
    split at h
    · cases h
    · cases h
      exact ⟨rs, re, cs, ce, rfl, assign_all i l.elements _⟩

theorem layer_point (i : Input) (hw : 0 < i.tileW) (hh : 0 < i.tileH) (n k lid : Nat) (l : Layer)
    (hl : i.layer lid = some l) (p : ℚ × ℚ) (hp : OnPage i p) (rs re cs ce : Nat)
    (hs : span i k l = some (rs, re, cs, ce))
    (hr : rs ≤ floorNat (p.2 / i.tileH) ∧ floorNat (p.2 / i.tileH) < re)
    (hc : cs ≤ floorNat (p.1 / i.tileW) ∧ floorNat (p.1 / i.tileW) < ce) :
    ∃ ts, layerTiles i n k lid = some ts ∧ ∃ t, OneTile ts p t ∧ t.elements = content i t.rect l.elements := by
  refine ⟨(newTiles i lid n (cells rs re cs ce)).map (fill i l.elements), ?_,
    one_tile i hw hh lid n _ (nodup_cells ..) _ p hp.1 hp.2.2.1 (mem_cells.2 ⟨hr, hc⟩)⟩
  unfold layerTiles
  rw [hl]
  simp only
  rw [hs]
  simp only
  rw [if_neg (by omega), assign_all]

theorem span_point (i : Input) (hw : 0 < i.tileW) (hh : 0 < i.tileH) (k : Nat) (l : Layer) (p : ℚ × ℚ) (hp : OnPage i p)
    (h : k = 0 ∨ ∃ e ∈ l.elements, ∃ m, i.box e = some m ∧ Inside m p) :
    ∃ rs re cs ce, span i k l = some (rs, re, cs, ce) ∧
      (rs ≤ floorNat (p.2 / i.tileH) ∧ floorNat (p.2 / i.tileH) < re) ∧
      (cs ≤ floorNat (p.1 / i.tileW) ∧ floorNat (p.1 / i.tileW) < ce) := by
  obtain ⟨x0, x1, y0, y1⟩ := hp
  have hR : floorNat (p.2 / i.tileH) < maxRows i := cell_lt hh y0 y1
  have hC : floorNat (p.1 / i.tileW) < maxCols i := cell_lt hw x0 x1
  unfold span
  split
  · exact ⟨_, _, _, _, rfl, ⟨Nat.zero_le _, hR⟩, Nat.zero_le _, hC⟩
  · rename_i hn
    rw [not_or] at hn
    rcases h with h | ⟨e, he, m, hm, a1, a2, a3, a4⟩
    · exact absurd h hn.1
    · obtain ⟨b, hb, b1, b2, b3, b4⟩ := fold_covers i l.elements none e m he hm (by linarith) (by linarith)
      rw [hb]
      refine ⟨_, _, _, _, rfl, ⟨?_, ?_⟩, ?_, ?_⟩
      · exact le_trans (min_le_left _ _) (cell_le hh (by linarith))
      · exact lt_min (cell_lt hh y0 (by linarith)) hR
      · exact le_trans (min_le_left _ _) (cell_le hw (by linarith))
      · exact lt_min (cell_lt hw x0 (by linarith)) hC

theorem generate_loop (i : Input) (hw : 0 < i.tileW) (hh : 0 < i.tileH) (next : Nat) :
    generate i next = loop i next 0 i.layerIds := by
  unfold generate
  rw [if_neg]
  rintro (h | h)
  · exact hw.ne' h
  · exact hh.ne' h

theorem touches_iff (t m : Rect) (ht : 0 ≤ t.width ∧ 0 ≤ t.height) (hm : 0 ≤ m.width ∧ 0 ≤ m.height) :
    touches t m = true ↔ Meet t m := by
  unfold touches Meet
  rw [decide_eq_true_eq, min_eq_left (by linarith [hm.1]), min_eq_left (by linarith [hm.2]),
    max_eq_right (by linarith [hm.1]), max_eq_right (by linarith [hm.2])]
  constructor
  · rintro ⟨a, b, c, d⟩
    refine ⟨max t.x m.x, max t.y m.y, le_max_left _ _, max_le (by linarith [ht.1]) a, le_max_left _ _,
      max_le (by linarith [ht.2]) c, le_max_right _ _, max_le b (by linarith [hm.1]), le_max_right _ _,
      max_le d (by linarith [hm.2])⟩
  · rintro ⟨px, py, h1, h2, h3, h4, h5, h6, h7, h8⟩
    exact ⟨by linarith, by linarith, by linarith, by linarith⟩

/-- **C132** Every point of an element that is on the page is on exactly one tile of the element's layer,
and that tile draws it where it belongs. -/
theorem C132_cover (i : Input) (hw : 0 < i.tileW) (hh : 0 < i.tileH) (next lid : Nat) (hlid : lid ∈ i.layerIds) (l : Layer)
    (hl : i.layer lid = some l) (e : Nat) (he : e ∈ l.elements) (m : Rect) (hm : i.box e = some m) (p : ℚ × ℚ)
    (hp : OnPage i p) (hin : Inside m p) :
    ∃ ts, (lid, ts) ∈ generate i next ∧ ∃ t, OneTile ts p t ∧
      (∃ d ∈ t.elements, d.id = e ∧ Draws t d m p) ∧ t.id ∈ tilesFor (generate i next) e := by
  obtain ⟨k, hk⟩ := List.mem_iff_getElem?.1 hlid
  obtain ⟨n, hn⟩ := loop_at i next 0 i.layerIds k lid hk
  obtain ⟨rs, re, cs, ce, hs, hr, hc⟩ := span_point i hw hh (0 + k) l p hp (.inr ⟨e, he, m, hm, hin⟩)
  obtain ⟨ts, hts, t, ht, hcon⟩ := layer_point i hw hh n (0 + k) lid l hl p hp rs re cs ce hs hr hc
  have hmem : (lid, ts) ∈ generate i next := by rw [generate_loop i hw hh]; exact hn ts hts
  have hd : part e m t.rect ∈ t.elements := by
    rw [hcon]
    unfold content
    rw [List.mem_filterMap]
    refine ⟨e, he, ?_⟩
    rw [hm]
    simp only [Option.bind_some]
    rw [if_pos]
    obtain ⟨a1, a2, a3, a4⟩ := hin
    obtain ⟨_, ⟨b1, b2, b3, b4⟩, _⟩ := ht
    rw [touches_iff _ _ ⟨by linarith, by linarith⟩ ⟨by linarith, by linarith⟩]
    exact ⟨p.1, p.2, by linarith, by linarith, by linarith, by linarith, by linarith, by linarith, by linarith, by linarith⟩
  refine ⟨ts, hmem, t, ht, ⟨_, hd, rfl, ?_⟩, ?_⟩
  · obtain ⟨a1, a2, a3, a4⟩ := hin
    obtain ⟨_, ⟨b1, b2, b3, b4⟩, _⟩ := ht
    unfold Draws Inside part
    simp only
    have c1 : max t.rect.x m.x ≤ p.1 := max_le b1 a1
    have c2 : max t.rect.y m.y ≤ p.2 := max_le b3 a3
    have c3 : p.1 < min (t.rect.x + t.rect.width) (m.x + m.width) := lt_min b2 a2
    have c4 : p.2 < min (t.rect.y + t.rect.height) (m.y + m.height) := lt_min b4 a4
    rw [max_comm m.x t.rect.x, max_comm m.y t.rect.y]
    refine ⟨⟨by linarith, by linarith, by linarith, by linarith⟩, by linarith, by linarith⟩
  · unfold tilesFor
    rw [List.mem_flatMap]
    refine ⟨t, List.mem_flatMap.2 ⟨_, hmem, ht.1⟩, ?_⟩
    rw [List.mem_map]
    exact ⟨_, List.mem_filter.2 ⟨hd, by simp [part]⟩, rfl⟩

/-- **C132** A tile holds the elements of its layer whose boxes meet it, and no others, in the order in
which the layer paints them, and each part lies in its element and in the tile. -/
theorem C132_elements (i : Input) (hw : 0 < i.tileW) (hh : 0 < i.tileH) (next lid : Nat) (l : Layer)
    (hl : i.layer lid = some l) (hb : ∀ e m, i.box e = some m → 0 ≤ m.width ∧ 0 ≤ m.height)
    (ts : List Tile) (hts : (lid, ts) ∈ generate i next) (t : Tile) (ht : t ∈ ts) :
    t.layer = lid ∧
    (t.elements.map (·.id)).Sublist l.elements ∧
    (∀ e, e ∈ t.elements.map (·.id) ↔ e ∈ l.elements ∧ ∃ m, i.box e = some m ∧ Meet t.rect m) ∧
    (∀ d ∈ t.elements, ∃ m, i.box d.id = some m ∧ Fits t d m) := by
  rw [generate_loop i hw hh] at hts
  obtain ⟨_, n, k, h⟩ := loop_mem i _ _ _ _ _ hts
  obtain ⟨rs, re, cs, ce, _, rfl⟩ := layer_form i n k lid l hl ts h
  obtain ⟨t0, ht0, rfl⟩ := List.mem_map.1 ht
  obtain ⟨c, _, id, rfl⟩ := mem_newTiles i lid _ n t0 ht0
  have hel : (fill i l.elements (newTile i lid id c)).elements =
      content i (newTile i lid id c).rect l.elements := by simp [fill, newTile]
  have hre : (fill i l.elements (newTile i lid id c)).rect = (newTile i lid id c).rect := rfl
  have hsz : 0 ≤ (newTile i lid id c).rect.width ∧ 0 ≤ (newTile i lid id c).rect.height := ⟨hw.le, hh.le⟩
  unfold Fits
  rw [hel, hre]
  generalize (newTile i lid id c).rect = r at hsz
  have mem : ∀ d, d ∈ content i r l.elements ↔ ∃ e ∈ l.elements, ∃ m, i.box e = some m ∧ touches r m = true ∧ d = part e m r := by
    intro d
    unfold content
    rw [List.mem_filterMap]
    constructor
    · rintro ⟨e, he, hd⟩
      cases hm : i.box e with
      | none => rw [hm] at hd; cases hd
      | some m =>
        rw [hm] at hd
        simp only [Option.bind_some] at hd
        split at hd
        · rename_i htt; cases hd; exact ⟨e, he, m, hm, htt, rfl⟩
        · cases hd
    · rintro ⟨e, he, m, hm, htt, rfl⟩
      refine ⟨e, he, ?_⟩
      rw [hm]; simp only [Option.bind_some]; rw [if_pos htt]
  refine ⟨rfl, ?_, ?_, ?_⟩
  · generalize l.elements = es
    induction es with
    | nil => exact List.Sublist.slnil
    | cons e es ih =>
      unfold content at ih ⊢
      cases hm : i.box e with
      | none =>
        rw [List.filterMap_cons_none (by rw [hm]; rfl)]
        exact List.Sublist.cons _ ih
      | some m =>
        by_cases htt : touches r m = true
        · rw [List.filterMap_cons_some (b := part e m r) (by rw [hm]; simp only [Option.bind_some]; rw [if_pos htt])]
          exact List.Sublist.cons_cons _ ih
        · rw [List.filterMap_cons_none (by rw [hm]; simp only [Option.bind_some]; rw [if_neg htt])]
          exact List.Sublist.cons _ ih
  · intro e
    rw [List.mem_map]
    constructor
    · rintro ⟨d, hd, rfl⟩
      obtain ⟨e, he, m, hm, htt, rfl⟩ := (mem d).1 hd
      exact ⟨he, m, hm, (touches_iff r m hsz (hb e m hm)).1 htt⟩
    · rintro ⟨he, m, hm, hmeet⟩
      exact ⟨part e m r, (mem _).2 ⟨e, he, m, hm, (touches_iff r m hsz (hb e m hm)).2 hmeet, rfl⟩, rfl⟩
  · intro d hd
    obtain ⟨e, he, m, hm, htt, rfl⟩ := (mem d).1 hd
    refine ⟨m, hm, ?_⟩
    have hbm := hb e m hm
    rw [touches_iff r m hsz hbm] at htt
    obtain ⟨px, py, h1, h2, h3, h4, h5, h6, h7, h8⟩ := htt
    unfold part
    simp only
    have a1 := le_max_left r.x m.x
    have a2 := le_max_right r.x m.x
    have a3 := le_max_left r.y m.y
    have a4 := le_max_right r.y m.y
    have b1 := min_le_left (r.x + r.width) (m.x + m.width)
    have b2 := min_le_right (r.x + r.width) (m.x + m.width)
    have b3 := min_le_left (r.y + r.height) (m.y + m.height)
    have b4 := min_le_right (r.y + r.height) (m.y + m.height)
    have c1 : max r.x m.x ≤ min (r.x + r.width) (m.x + m.width) :=
      le_trans (max_le h1 h5) (le_min h2 h6)
    have c2 : max r.y m.y ≤ min (r.y + r.height) (m.y + m.height) :=
      le_trans (max_le h3 h7) (le_min h4 h8)
    rw [max_comm m.x r.x, max_comm m.y r.y]
    exact ⟨by linarith, by linarith, by linarith, by linarith, by linarith, by linarith, by linarith, by linarith,
      by linarith, by linarith⟩

/-- a page of two tiles in a row with an element across both, in the second layer -/
def demo : Input where
  tileW := 100
  tileH := 50
  pageW := 200
  pageH := 50
  layerIds := [7, 9]
  layer n := if n = 7 then some ⟨[1]⟩ else if n = 9 then some ⟨[2, 3]⟩ else none
  box n := if n = 1 then some ⟨0, 0, 200, 50⟩ else if n = 2 then some ⟨50, 10, 100, 20⟩
    else if n = 3 then some ⟨120, 10, 5 / 2, 20⟩ else none
  html := none
  body := some (1, 2, 3, 255)

/-- The hypotheses of C132 hold for it, and what it is cut into. -/
example : 0 < demo.tileW ∧ 0 < demo.tileH ∧ 9 ∈ demo.layerIds ∧ OnPage demo (121, 12) ∧ Inside ⟨120, 10, 5 / 2, 20⟩ (121, 12) ∧
    generate demo 0 =
      [(7, [⟨0, 7, [⟨1, ⟨0, 0, 100, 50⟩, (0, 0)⟩], ⟨0, 0, 100, 50⟩, some (1, 2, 3, 255)⟩,
            ⟨1, 7, [⟨1, ⟨100, 0, 100, 50⟩, (0, 0)⟩], ⟨100, 0, 100, 50⟩, some (1, 2, 3, 255)⟩]),
       (9, [⟨2, 9, [⟨2, ⟨0, 0, 50, 20⟩, (50, 10)⟩], ⟨0, 0, 100, 50⟩, some (1, 2, 3, 255)⟩,
            ⟨3, 9, [⟨2, ⟨50, 0, 50, 20⟩, (0, 10)⟩, ⟨3, ⟨0, 0, 5 / 2, 20⟩, (20, 10)⟩], ⟨100, 0, 100, 50⟩,
              some (1, 2, 3, 255)⟩])] := by
  unfold OnPage Inside
  decide +kernel

/-- a page of two tiles with an element whose right margin is negative -/
def bad : Input :=
  ⟨100, 50, 200, 50, [7], fun _ => some ⟨[1]⟩, fun _ => some (marginBox ⟨50, 0, 100, 20⟩ ⟨0, -60, 0, 0⟩), none, none⟩

/-- **C132 is violated** for what is painted outside the margin box: with a negative margin, the border
box reaches further than the margin box, and the part that is on another tile is not drawn. -/
theorem C132_negative_margin_violated : ∃ (i : Input) (lid : Nat) (l : Layer) (e : Nat) (border : Rect) (margin : Edges)
    (p : ℚ × ℚ), 0 < i.tileW ∧ 0 < i.tileH ∧ lid ∈ i.layerIds ∧ i.layer lid = some l ∧ e ∈ l.elements ∧
    i.box e = some (marginBox border margin) ∧ Inside border p ∧ OnPage i p ∧
    ∀ next, ∀ x ∈ generate i next, ∀ t ∈ x.2, Inside t.rect p → ∀ d ∈ t.elements, d.id ≠ e := by
  refine ⟨bad, 7, ⟨[1]⟩, 1, ⟨50, 0, 100, 20⟩, ⟨0, -60, 0, 0⟩, (120, 10), by decide +kernel, by decide +kernel, by decide, rfl, by decide, rfl,
    by unfold Inside; decide +kernel, by unfold OnPage; decide +kernel, ?_⟩
  intro next x hx t ht hin d hd he
  rw [generate_loop _ (by decide +kernel) (by decide +kernel)] at hx
  obtain ⟨lid, ts⟩ := x
  obtain ⟨hlid, n, k, h⟩ := loop_mem _ _ _ _ _ _ hx
  obtain ⟨rs, re, cs, ce, _, rfl⟩ := layer_form bad n k lid ⟨[1]⟩ rfl ts h
  obtain ⟨t0, ht0, rfl⟩ := List.mem_map.1 ht
  obtain ⟨c, _, id, rfl⟩ := mem_newTiles bad lid _ n t0 ht0
  have hel : (fill bad [1] (newTile bad lid id c)).elements = content bad (newTile bad lid id c).rect [1] := by
    simp [fill, newTile]
  rw [hel] at hd
  unfold content at hd
  rw [List.mem_filterMap] at hd
  obtain ⟨e', _, hd⟩ := hd
  have hbox : bad.box e' = some (marginBox ⟨50, 0, 100, 20⟩ ⟨0, -60, 0, 0⟩) := rfl
  rw [hbox, Option.bind_some] at hd
  split at hd
  · rename_i htt
    have h1 := (inside_new bad (by decide +kernel) (by decide +kernel) lid id c (120, 10) (by decide +kernel) (by decide +kernel)).1 hin
    subst h1
    have h2 : touches (newTile bad 0 0 (floorNat (((120, 10) : ℚ × ℚ).2 / bad.tileH),
        floorNat (((120, 10) : ℚ × ℚ).1 / bad.tileW))).rect (marginBox ⟨50, 0, 100, 20⟩ ⟨0, -60, 0, 0⟩) = false := by
      decide +kernel
    exact absurd htt (ne_true_of_eq_false h2)
  · cases hd

/-- **C133** The canvas: the first layer has a tile for every point of the page, exactly one, and all
tiles are on the colour of the canvas: the background of `html` if that is not transparent, else that of
`body`, else none. -/
theorem C133_canvas (i : Input) (hw : 0 < i.tileW) (hh : 0 < i.tileH) (next : Nat) :
    (∀ lid l, i.layerIds.head? = some lid → i.layer lid = some l → ∀ p, OnPage i p →
      ∃ ts, (lid, ts) ∈ generate i next ∧ ∃ t, OneTile ts p t) ∧
    (∀ x ∈ generate i next, ∀ t ∈ x.2,
      (∀ r g b a, i.html = some (r, g, b, a) → 0 < a → t.bg = some (r, g, b, a)) ∧
      ((∀ r g b a, i.html = some (r, g, b, a) → a = 0) →
        (∀ r g b a, i.body = some (r, g, b, a) → 0 < a → t.bg = some (r, g, b, a)) ∧
        ((∀ r g b a, i.body = some (r, g, b, a) → a = 0) → t.bg = none))) := by
  refine ⟨?_, ?_⟩
  · intro lid l hlid hl p hp
    rw [List.head?_eq_getElem?] at hlid
    obtain ⟨n, hn⟩ := loop_at i next 0 i.layerIds 0 lid hlid
    obtain ⟨rs, re, cs, ce, hs, hr, hc⟩ := span_point i hw hh (0 + 0) l p hp (.inl rfl)
    obtain ⟨ts, hts, t, ht, _⟩ := layer_point i hw hh n (0 + 0) lid l hl p hp rs re cs ce hs hr hc
    exact ⟨ts, by rw [generate_loop i hw hh]; exact hn ts hts, t, ht⟩
  · rintro ⟨lid, ts⟩ hx t ht
    rw [generate_loop i hw hh] at hx
    obtain ⟨_, n, k, h⟩ := loop_mem i _ _ _ _ _ hx
    have hbg : t.bg = canvas i := by
      cases hl : i.layer lid with
      | none => unfold layerTiles at h; rw [hl] at h; cases h
      | some l =>
        obtain ⟨rs, re, cs, ce, _, rfl⟩ := layer_form i n k lid l hl ts h
        obtain ⟨t0, ht0, rfl⟩ := List.mem_map.1 ht
        obtain ⟨c, _, id, rfl⟩ := mem_newTiles i lid _ n t0 ht0
        rfl
    rw [hbg]
    have pos : ∀ c : Option Color, ∀ r g b a, c = some (r, g, b, a) → 0 < a → background c = some (r, g, b, a) := by
      rintro _ r g b a rfl ha
      exact if_pos ha
    have zero : ∀ c : Option Color, (∀ r g b a, c = some (r, g, b, a) → a = 0) → background c = none := by
      rintro (_ | ⟨r, g, b, a⟩) hc
      · rfl
      · rw [hc r g b a rfl]; rfl
    unfold canvas
    refine ⟨?_, ?_⟩
    · intro r g b a he ha
      rw [pos _ r g b a he ha]
    · intro hz
      rw [zero _ hz]
      exact ⟨fun r g b a he ha => pos _ r g b a he ha, fun hz' => zero _ hz'⟩

/-- **C133** No two tiles have the same id, over all layers; the layers come in their order, each once. -/
theorem C133_ids (i : Input) (next : Nat) :
    (((generate i next).flatMap (·.2)).map (·.id)).Nodup ∧ ((generate i next).map (·.1)).Sublist i.layerIds := by
  have ids : ∀ lid cs n, (newTiles i lid n cs).map (·.id) = List.range' n cs.length ∧
      (newTiles i lid n cs).length = cs.length := by
    intro lid cs
    induction cs with
    | nil => intro n; exact ⟨rfl, rfl⟩
    | cons c cs ih =>
      intro n
      refine ⟨?_, ?_⟩
      · show n :: (newTiles i lid (n + 1) cs).map (·.id) = _
        rw [(ih (n + 1)).1, List.length_cons, List.range'_succ]
      · show (newTiles i lid (n + 1) cs).length + 1 = _
        rw [(ih (n + 1)).2, List.length_cons]
  have lt : ∀ n k lid ts, layerTiles i n k lid = some ts → ts.map (·.id) = List.range' n ts.length := by
    intro n k lid ts h
    cases hl : i.layer lid with
    | none => unfold layerTiles at h; rw [hl] at h; cases h
    | some l =>
      obtain ⟨rs, re, cs, ce, _, rfl⟩ := layer_form i n k lid l hl ts h
      rw [List.map_map, List.length_map, (ids lid _ n).2, ← (ids lid _ n).1]
      rfl
  have key : ∀ (xs : List Nat) n k, ∃ len, ((loop i n k xs).flatMap (·.2)).map (·.id) = List.range' n len := by
    intro xs
    induction xs with
    | nil => intro n k; exact ⟨0, rfl⟩
    | cons x xs ih =>
      intro n k
      unfold loop
      cases hl : layerTiles i n k x with
      | none => exact ih n (k + 1)
      | some ts =>
        obtain ⟨len, hlen⟩ := ih (n + ts.length) (k + 1)
        refine ⟨ts.length + len, ?_⟩
        show ((ts ++ (loop i (n + ts.length) (k + 1) xs).flatMap (·.2)).map (·.id)) = _
        rw [List.map_append, lt n k x ts hl, hlen, List.range'_append_1]
  have sub : ∀ (xs : List Nat) n k, ((loop i n k xs).map (·.1)).Sublist xs := by
    intro xs
    induction xs with
    | nil => intro n k; exact List.Sublist.slnil
    | cons x xs ih =>
      intro n k
      unfold loop
      cases hl : layerTiles i n k x with
      | none => exact List.Sublist.cons _ (ih n (k + 1))
      | some ts => exact List.Sublist.cons_cons _ (ih (n + ts.length) (k + 1))
  unfold generate
  split
  · exact ⟨List.nodup_nil, List.nil_sublist _⟩
  · obtain ⟨len, hlen⟩ := key i.layerIds next 0
    exact ⟨by rw [hlen]; exact List.nodup_range' .., sub _ _ _⟩

end Verif.Tiler
