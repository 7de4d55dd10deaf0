import Verif.Composite.Lemmas2

/-! # C56: compositing, C74: pixels, C75: seams -/
namespace Verif.Composite
open Verif.Layers

theorem composite_fold (dpr : Nat) (sx sy : ℚ) (g : Target) (tiles : List CachedTile) : ∀ (buf : List Nat),
    (∀ t ∈ tiles, TileOk t) → Words buf → Fits g buf →
    ∃ buf', compositeTiles tiles dpr sx sy g buf = some buf' ∧ buf'.length = buf.length ∧ Words buf' ∧
      (∀ j, Outside g j → buf'.getD j 0 = buf.getD j 0) ∧
      ∀ x y, x < g.width → y < g.height →
        buf'.getD (at' g x y) 0 = tiles.foldl (over dpr sx sy x y) (buf.getD (at' g x y) 0) := by
  induction tiles with
  | nil => intro buf _ hw _; exact ⟨buf, rfl, rfl, hw, fun _ _ => rfl, fun _ _ _ _ => rfl⟩
  | cons t r ih =>
    intro buf ht hw hf
    obtain ⟨b1, h1, h2, h3, h4, h5⟩ := compositeTile_spec dpr sx sy g buf t (ht t (by simp)) hw hf
    obtain ⟨b2, k1, k2, k3, k4, k5⟩ := ih b1 (fun u hu => ht u (List.mem_cons_of_mem _ hu)) h3 (fits_len hf h2)
    refine ⟨b2, ?_, k2.trans h2, k3, fun j hj => (k4 j hj).trans (h4 j hj), ?_⟩
    · simp only [compositeTiles, List.foldlM_cons, h1]
      exact k1
    · intro x y hx hy
      rw [k5 x y hx hy, h5 x y hx hy, List.foldl_cons]

/-- C56: compositing never panics when the target lies in the buffer and the tiles have their pixels; it changes
nothing outside the target; and in the target each pixel is what the tiles covering it make of it, in order. -/
theorem C56_result (tiles : List CachedTile) (dpr : Nat) (sx sy : ℚ) (g : Target) (buf : List Nat)
    (ht : ∀ t ∈ tiles, TileOk t) (hw : ∀ p ∈ buf, p < 2 ^ 32) (hf : Fits g buf) :
    ∃ buf', compositeTiles tiles dpr sx sy g buf = some buf' ∧ buf'.length = buf.length ∧ (∀ p ∈ buf', p < 2 ^ 32) ∧
      (∀ j, (∀ x y, x < g.width → y < g.height → j ≠ at' g x y) → buf'.getD j 0 = buf.getD j 0) ∧
      ∀ x y, x < g.width → y < g.height →
        buf'.getD (at' g x y) 0 = tiles.foldl (over dpr sx sy x y) (buf.getD (at' g x y) 0) :=
  composite_fold dpr sx sy g tiles buf ht hw hf

theorem round_spec (q : ℚ) : Rounded q (roundQ q) := by
  rw [roundQ]
  by_cases h : 0 ≤ q
  · rw [if_pos h]
    have h1 := Int.floor_le (q + 1 / 2)
    have h2 := Int.lt_floor_add_one (q + 1 / 2)
    generalize ⌊q + 1 / 2⌋ = n at *
    refine ⟨by linarith, by linarith, fun hh => ?_, fun hh => by linarith⟩
    rcases lt_or_eq_of_le h with h' | h'
    · exact h'
    · exfalso
      rw [← h'] at hh
      have : ((2 * n : Int) : ℚ) = ((1 : Int) : ℚ) := by push_cast; linarith
      have := Int.cast_injective (α := ℚ) this
      omega
  · rw [if_neg h]
    have h1 := Int.floor_le (-q + 1 / 2)
    have h2 := Int.lt_floor_add_one (-q + 1 / 2)
    generalize ⌊-q + 1 / 2⌋ = n at *
    refine ⟨by push_cast; linarith, by push_cast; linarith, fun hh => ?_, fun hh => by linarith⟩
    push_cast at hh
    exfalso
    linarith

/-- C56: a tile goes to the nearest device pixel: of its page position less the scroll offset when it scrolls, of its
page position when it is fixed, of its shifted position when it is sticky. -/
theorem C56_position (t : CachedTile) (dpr : Nat) (sx sy : ℚ) :
    Rounded ((match t.anchor with
      | .scroll => t.pageX - sx
      | .fixed => t.pageX
      | .sticky c => t.pageX - sx + (c.offset sx sy).1) * dpr) (tilePos t dpr sx sy).1 ∧
    Rounded ((match t.anchor with
      | .scroll => t.pageY - sy
      | .fixed => t.pageY
      | .sticky c => t.pageY - sy + (c.offset sx sy).2) * dpr) (tilePos t dpr sx sy).2 := by
  cases h : t.anchor <;> simp only [tilePos, anchoredPos, h] <;> exact ⟨round_spec _, round_spec _⟩

/-! ## Pixels -/

/-- C74: fading a pixel multiplies each channel by the opacity in 255ths, rounded to the nearest. -/
theorem C74_scale (p : Nat) (hp : p < 2 ^ 32) (o : ℚ) (h0 : 0 ≤ o) (h1 : o < 1) :
    ∃ q f : Nat, scalePremul p o = some q ∧ q < 2 ^ 32 ∧ (f : ℚ) - 1 / 2 ≤ o * 255 ∧ o * 255 < f + 1 / 2 ∧
      Nearest255 (chA q) (chA p * f) ∧ Nearest255 (chR q) (chR p * f) ∧ Nearest255 (chG q) (chG p * f) ∧
      Nearest255 (chB q) (chB p * f) := by
  obtain ⟨hf, hf'⟩ := factor_spec o
  obtain ⟨hf1, hf2⟩ := hf' h0 h1.le
  have hle : ∀ c, c < 256 → div255 (c * opacityFactor o) < 256 := fun c hc => Nat.lt_succ_of_le (div255_le (prod_le hc hf))
  obtain ⟨e1, e2, e3, e4⟩ := ch_pack (div255 (chA p * opacityFactor o)) (div255 (chR p * opacityFactor o))
    (div255 (chG p * opacityFactor o)) (div255 (chB p * opacityFactor o)) (hle _ (chR_lt p)) (hle _ (chG_lt p))
    (hle _ (chB_lt p))
  refine ⟨_, opacityFactor o, scale_spec hp o h1 hf, ?_, hf1, hf2, ?_⟩
  · exact pack_lt (hle _ (chA_lt hp)) (hle _ (chR_lt p)) (hle _ (chG_lt p)) (hle _ (chB_lt p))
  · rw [e1, e2, e3, e4]
    exact ⟨div255_nearest (prod_le (chA_lt hp) hf), div255_nearest (prod_le (chR_lt p) hf),
      div255_nearest (prod_le (chG_lt p) hf), div255_nearest (prod_le (chB_lt p) hf)⟩

/-- C74: a full opacity changes nothing. -/
theorem C74_scale_opaque (p : Nat) (o : ℚ) (h : 1 ≤ o) : scalePremul p o = some p := by
  rw [scalePremul, if_pos h]

theorem nearest_mono {m n x y : Nat} (h : Nearest255 m x) (h' : Nearest255 n y) (hxy : x ≤ y) : m ≤ n := by
  rw [Nearest255] at *; omega

/-- C74: a faded pixel is premultiplied if the pixel is. -/
theorem C74_scale_premul (p q : Nat) (hp : p < 2 ^ 32) (o : ℚ) (h0 : 0 ≤ o) (hq : scalePremul p o = some q)
    (h : Premul p) : Premul q := by
  by_cases h1 : o < 1
  · obtain ⟨q', f, hs, _, _, _, ha, hr, hg, hb⟩ := C74_scale p hp o h0 h1
    rw [hq] at hs
    cases hs
    exact ⟨nearest_mono hr ha (Nat.mul_le_mul_right _ h.1), nearest_mono hg ha (Nat.mul_le_mul_right _ h.2.1),
      nearest_mono hb ha (Nat.mul_le_mul_right _ h.2.2)⟩
  · rw [C74_scale_opaque p o (not_lt.mp h1)] at hq
    cases hq
    exact h

theorem close_of_nearest {n c f : Nat} {o : ℚ} (hc : c < 256) (h : Nearest255 n (c * f)) (h1 : (f : ℚ) - 1 / 2 ≤ o * 255)
    (h2 : o * 255 < f + 1 / 2) : |(n : ℚ) - c * o| ≤ 1 := by
  obtain ⟨k1, k2⟩ := h
  have hn1 : (2 * (255 * (n : ℚ))) < 2 * ((c : ℚ) * f) + 255 := by exact_mod_cast k1
  have hn2 : 2 * ((c : ℚ) * f) < 2 * (255 * (n : ℚ)) + 255 := by exact_mod_cast k2
  have hcq : (c : ℚ) ≤ 255 := by exact_mod_cast Nat.le_of_lt_succ hc
  have hc0 : (0 : ℚ) ≤ c := Nat.cast_nonneg c
  have e1 : (c : ℚ) * (f - 1 / 2) ≤ c * (o * 255) := mul_le_mul_of_nonneg_left h1 hc0
  have e2 : (c : ℚ) * (o * 255) ≤ c * (f + 1 / 2) := mul_le_mul_of_nonneg_left h2.le hc0
  rw [abs_le]
  constructor <;> nlinarith

/-- C74: a faded channel is within 1 of the exact value. -/
theorem C74_scale_close (p q : Nat) (hp : p < 2 ^ 32) (o : ℚ) (h0 : 0 ≤ o) (h1 : o < 1) (hq : scalePremul p o = some q) :
    |(chA q : ℚ) - chA p * o| ≤ 1 ∧ |(chR q : ℚ) - chR p * o| ≤ 1 ∧ |(chG q : ℚ) - chG p * o| ≤ 1 ∧
      |(chB q : ℚ) - chB p * o| ≤ 1 := by
  obtain ⟨q', f, hs, _, f1, f2, ha, hr, hg, hb⟩ := C74_scale p hp o h0 h1
  rw [hq] at hs
  cases hs
  exact ⟨close_of_nearest (chA_lt hp) ha f1 f2, close_of_nearest (chR_lt p) hr f1 f2,
    close_of_nearest (chG_lt p) hg f1 f2, close_of_nearest (chB_lt p) hb f1 f2⟩

theorem over_full {c : Nat} (s : Nat) : Over255 s s c 0 := ⟨0, by rw [Nearest255]; omega, by omega⟩

theorem over_none {c : Nat} : Over255 c 0 c 255 := ⟨c, by rw [Nearest255]; omega, by omega⟩

/-- C74: blending a premultiplied pixel over another adds to each of its channels what shows through, rounded to the
nearest; the sum always fits in 8 bits. -/
theorem C74_blend (s d : Nat) (hs : s < 2 ^ 32) (hd : d < 2 ^ 32) (hp : Premul s) :
    ∃ q, blendOver s d = some q ∧ q < 2 ^ 32 ∧ Over255 (chA q) (chA s) (chA d) (255 - chA s) ∧
      Over255 (chR q) (chR s) (chR d) (255 - chA s) ∧ Over255 (chG q) (chG s) (chG d) (255 - chA s) ∧
      Over255 (chB q) (chB s) (chB d) (255 - chA s) := by
  have hsa : s >>> 24 = chA s := by rw [Nat.shiftRight_eq_div_pow, chA]
  have hA := chA_lt hs
  obtain ⟨p1, p2, p3⟩ := hp
  by_cases h1 : chA s = 255
  · refine ⟨s, by simp only [blendOver, hsa]; rw [if_pos h1], hs, ?_⟩
    rw [h1, show 255 - 255 = 0 from rfl]
    refine ⟨?_, over_full _, over_full _, over_full _⟩
    exact over_full 255
  · by_cases h0 : chA s = 0
    · refine ⟨d, by simp only [blendOver, hsa]; rw [if_neg h1, if_pos h0], hd, ?_⟩
      rw [h0] at p1 p2 p3 ⊢
      rw [Nat.le_zero.mp p1, Nat.le_zero.mp p2, Nat.le_zero.mp p3]
      exact ⟨over_none, over_none, over_none, over_none⟩
    · have hf : 255 - chA s ≤ 255 := Nat.sub_le _ _
      have key : ∀ c, c < 256 → Nearest255 (div255 (c * (255 - chA s))) (c * (255 - chA s)) ∧
          div255 (c * (255 - chA s)) ≤ 255 - chA s := by
        intro c hc
        have hn := div255_nearest (prod_le hc hf)
        refine ⟨hn, ?_⟩
        have hle : c * (255 - chA s) ≤ 255 * (255 - chA s) := Nat.mul_le_mul_right _ (by omega)
        rw [Nearest255] at hn
        omega
      obtain ⟨n1, l1⟩ := key _ (chA_lt hd)
      obtain ⟨n2, l2⟩ := key _ (chR_lt d)
      obtain ⟨n3, l3⟩ := key _ (chG_lt d)
      obtain ⟨n4, l4⟩ := key _ (chB_lt d)
      have hb := blend_spec hs hd h0 h1
      generalize div255 (chA d * (255 - chA s)) = xa at *
      generalize div255 (chR d * (255 - chA s)) = xr at *
      generalize div255 (chG d * (255 - chA s)) = xg at *
      generalize div255 (chB d * (255 - chA s)) = xb at *
      have m1 : (chA s + xa) % 256 = chA s + xa := Nat.mod_eq_of_lt (by omega)
      have m2 : (chR s + xr + (chB s + xb) / 65536) % 256 = chR s + xr := by
        rw [Nat.div_eq_of_lt (by omega)]; exact Nat.mod_eq_of_lt (by omega)
      have m3 : (chG s + xg) % 256 = chG s + xg := Nat.mod_eq_of_lt (by omega)
      have m4 : (chB s + xb) % 256 = chB s + xb := Nat.mod_eq_of_lt (by omega)
      rw [m1, m2, m3, m4] at hb
      obtain ⟨e1, e2, e3, e4⟩ := ch_pack (chA s + xa) (chR s + xr) (chG s + xg) (chB s + xb) (by omega) (by omega) (by omega)
      refine ⟨_, hb, pack_lt (by omega) (by omega) (by omega) (by omega), ?_⟩
      rw [e1, e2, e3, e4]
      exact ⟨⟨_, n1, rfl⟩, ⟨_, n2, rfl⟩, ⟨_, n3, rfl⟩, ⟨_, n4, rfl⟩⟩

/-- C74: over a premultiplied pixel the result is premultiplied, and over an opaque one it is opaque. -/
theorem C74_blend_kept (s d q : Nat) (hs : s < 2 ^ 32) (hd : d < 2 ^ 32) (hp : Premul s) (hq : blendOver s d = some q) :
    (Premul d → Premul q) ∧ (chA d = 255 → chA q = 255) := by
  obtain ⟨q', h, _, ⟨na, hna, ea⟩, ⟨nr, hnr, er⟩, ⟨ng, hng, eg⟩, ⟨nb, hnb, eb⟩⟩ := C74_blend s d hs hd hp
  rw [hq] at h
  cases h
  have hA := chA_lt hs
  constructor
  · intro hpd
    have h1 := nearest_mono hnr hna (Nat.mul_le_mul_right _ hpd.1)
    have h2 := nearest_mono hng hna (Nat.mul_le_mul_right _ hpd.2.1)
    have h3 := nearest_mono hnb hna (Nat.mul_le_mul_right _ hpd.2.2)
    obtain ⟨p1, p2, p3⟩ := hp
    exact ⟨by omega, by omega, by omega⟩
  · intro h255
    rw [h255, Nearest255] at hna
    omega

/-- C74 needs the source premultiplied: otherwise a channel can wrap around. -/
theorem C74_needs_premul : blendOver (pack 128 255 0 0) (pack 255 255 255 255) = some (pack 255 126 127 127) := by
  decide +kernel

/-- C74: both byte orders are read as the same channels. -/
theorem C74_formats (c0 c1 c2 c3 : Nat) (h0 : c0 < 256) (h1 : c1 < 256) (h2 : c2 < 256) (h3 : c3 < 256) :
    pixelToArgb .rgba8 (c0 + 2 ^ 8 * c1 + 2 ^ 16 * c2 + 2 ^ 24 * c3) = pack c3 c0 c1 c2 ∧
    pixelToArgb .preMulArgb32 (c0 + 2 ^ 8 * c1 + 2 ^ 16 * c2 + 2 ^ 24 * c3) = pack c3 c2 c1 c0 := by
  have e : c0 + 2 ^ 8 * c1 + 2 ^ 16 * c2 + 2 ^ 24 * c3 = pack c3 c2 c1 c0 := by rw [pack]; omega
  obtain ⟨e1, e2, e3, e4⟩ := ch_pack c3 c2 c1 c0 h2 h1 h0
  rw [e]
  refine ⟨?_, rfl⟩
  rw [pixel_rgba (pack_lt h3 h2 h1 h0), e1, e2, e3, e4]

theorem swapRb_swapRb (l : List Nat) : swapRb (swapRb l) = l := by
  match l with
  | a :: b :: c :: d :: r => simp only [swapRb]; rw [swapRb_swapRb r]
  | [] => rfl
  | [_] => rfl
  | [_, _] => rfl
  | [_, _, _] => rfl

/-- C74: converting the bytes of a tile to one order and back changes nothing, and in both orders the third byte of
each pixel in one is the first in the other. -/
theorem C74_convert (f : Format) (data : List Nat) :
    toRgba .preMulArgb32 (toArgb32 f data) = toRgba f data ∧ toArgb32 .rgba8 (toRgba f data) = toArgb32 f data ∧
    (∀ i, 4 * i + 3 < data.length →
      (toRgba .preMulArgb32 data).getD (4 * i) 0 = data.getD (4 * i + 2) 0 ∧
      (toRgba .preMulArgb32 data).getD (4 * i + 1) 0 = data.getD (4 * i + 1) 0 ∧
      (toRgba .preMulArgb32 data).getD (4 * i + 2) 0 = data.getD (4 * i) 0 ∧
      (toRgba .preMulArgb32 data).getD (4 * i + 3) 0 = data.getD (4 * i + 3) 0) ∧
    (toRgba .preMulArgb32 data).length = data.length := by
  refine ⟨?_, ?_, ?_⟩
  · cases f <;> simp [toRgba, toArgb32, swapRb_swapRb]
  · cases f <;> simp [toRgba, toArgb32, swapRb_swapRb]
  · simp only [toRgba]
    have : ∀ l : List Nat, (∀ i, 4 * i + 3 < l.length →
        (swapRb l).getD (4 * i) 0 = l.getD (4 * i + 2) 0 ∧ (swapRb l).getD (4 * i + 1) 0 = l.getD (4 * i + 1) 0 ∧
        (swapRb l).getD (4 * i + 2) 0 = l.getD (4 * i) 0 ∧ (swapRb l).getD (4 * i + 3) 0 = l.getD (4 * i + 3) 0) ∧
        (swapRb l).length = l.length := by
      intro l
      induction l using swapRb.induct with
      | case1 a b c d r ih =>
        refine ⟨?_, by simp [swapRb, ih.2]⟩
        intro i hi
        cases i with
        | zero => simp [swapRb]
        | succ i =>
          simp only [List.length_cons] at hi
          have := ih.1 i (by omega)
          simp only [swapRb, show 4 * (i + 1) = 4 * i + 4 by ring, show 4 * i + 4 + 1 = 4 * i + 1 + 4 by ring,
            show 4 * i + 4 + 2 = 4 * i + 2 + 4 by ring, show 4 * i + 4 + 3 = 4 * i + 3 + 4 by ring, List.getD_cons_succ]
          exact this
      | case2 l h =>
        have hl : l.length < 4 := by
          match l, h with
          | [], _ => simp
          | [_], _ => simp
          | [_, _], _ => simp
          | [_, _, _], _ => simp
          | a :: b :: c :: d :: r, h => exact absurd rfl (h a b c d r)
        have hs : swapRb l = l := by
          match l, h with
          | [], _ => rfl
          | [_], _ => rfl
          | [_, _], _ => rfl
          | [_, _, _], _ => rfl
          | a :: b :: c :: d :: r, h => exact absurd rfl (h a b c d r)
        exact ⟨fun i hi => by omega, by rw [hs]⟩
    exact this data

/-- C74: what is presented has the colour channels of each pixel in order and is opaque. -/
theorem C74_present (buf : List Nat) : argbToRgba8 buf = buf.flatMap fun p => [chR p, chG p, chB p, 255] := by
  rw [argbToRgba8]
  congr 1
  funext p
  rw [and_255, and_255, and_255, Nat.shiftRight_eq_div_pow, Nat.shiftRight_eq_div_pow, chR, chG, chB]

/-! ## Seams -/

theorem round_unique {q : ℚ} {m n : Int} (h : Rounded q m) (h' : Rounded q n) : m = n := by
  obtain ⟨a1, a2, a3, a4⟩ := h
  obtain ⟨b1, b2, b3, b4⟩ := h'
  by_contra hne
  rcases lt_or_gt_of_ne hne with hlt | hlt
  · have : (m : ℚ) + 1 ≤ n := by exact_mod_cast hlt
    have e1 : q = n - 1 / 2 := by linarith
    have e2 : q = m + 1 / 2 := by linarith
    have := b3 e1
    have := a4 e2
    linarith
  · have : (n : ℚ) + 1 ≤ m := by exact_mod_cast hlt
    have e1 : q = m - 1 / 2 := by linarith
    have e2 : q = n + 1 / 2 := by linarith
    have := a3 e1
    have := b4 e2
    linarith

/-- C75: tiles side by side on the page are side by side on screen, unless the position is a half and the first starts
before the edge of the screen and the second after it: then one row or column between them is left. -/
theorem C75_seam (q : ℚ) (w : Nat) :
    (¬ (Half q ∧ q < 0 ∧ 0 < q + w) → roundQ (q + w) = roundQ q + w) ∧
    (Half q ∧ q < 0 ∧ 0 < q + w → roundQ (q + w) = roundQ q + w + 1) := by
  obtain ⟨a1, a2, a3, a4⟩ := round_spec q
  have hr := round_spec (q + w)
  generalize roundQ q = m at *
  have hw : (0 : ℚ) ≤ w := Nat.cast_nonneg w
  constructor
  · intro hn
    refine round_unique hr ⟨by push_cast; linarith, by push_cast; linarith, ?_, ?_⟩
    · intro h
      push_cast at h
      have := a3 (by linarith)
      linarith
    · intro h
      push_cast at h
      have hh : q = m + 1 / 2 := by linarith
      have h0 := a4 hh
      by_contra h2
      rw [not_lt] at h2
      rcases lt_or_eq_of_le h2 with h3 | h3
      · exact hn ⟨⟨m, hh⟩, h0, h3⟩
      · have : ((2 * m + 1 + 2 * w : Int) : ℚ) = ((0 : Int) : ℚ) := by push_cast; linarith
        have := Int.cast_injective (α := ℚ) this
        omega
  · rintro ⟨⟨n, hn⟩, h0, h1⟩
    have hm : q = m + 1 / 2 := by
      rcases lt_trichotomy m n with h | h | h
      · have : (m : ℚ) + 1 ≤ n := by exact_mod_cast h
        linarith
      · rw [hn, h]
      · have h' : (n : ℚ) + 1 ≤ m := by exact_mod_cast h
        have : q = m - 1 / 2 := by linarith
        have := a3 this
        linarith
    refine round_unique hr ⟨by push_cast; linarith, by push_cast; linarith, ?_, ?_⟩
    · intro _; exact h1
    · intro h; push_cast at h; linarith

/-- C75: for two scrolling tiles one above the other, every screen row from the top of the first to the bottom of the
second is covered by exactly one of them.  Partial: not when the first starts half a device pixel off, above the edge. -/
theorem C75_rows_partial (t u : CachedTile) (dpr : Nat) (sx sy : ℚ) (ht : t.anchor = .scroll) (hu : u.anchor = .scroll)
    (hadj : u.pageY * dpr = t.pageY * dpr + t.height)
    (hseam : ¬ (Half ((t.pageY - sy) * dpr) ∧ (t.pageY - sy) * dpr < 0)) (y : Int) :
    ((tilePos t dpr sx sy).2 ≤ y ∧ y < (tilePos u dpr sx sy).2 + u.height) ↔
      (((tilePos t dpr sx sy).2 ≤ y ∧ y < (tilePos t dpr sx sy).2 + t.height) ∨
       ((tilePos u dpr sx sy).2 ≤ y ∧ y < (tilePos u dpr sx sy).2 + u.height)) ∧
      ¬ (((tilePos t dpr sx sy).2 ≤ y ∧ y < (tilePos t dpr sx sy).2 + t.height) ∧
       ((tilePos u dpr sx sy).2 ≤ y ∧ y < (tilePos u dpr sx sy).2 + u.height)) := by
  have h1 : (tilePos t dpr sx sy).2 = roundQ ((t.pageY - sy) * dpr) := by simp only [tilePos, anchoredPos, ht]
  have h2 : (tilePos u dpr sx sy).2 = roundQ ((t.pageY - sy) * dpr + t.height) := by
    simp only [tilePos, anchoredPos, hu]
    congr 1
    rw [sub_mul, hadj]; ring
  rw [h1, h2, (C75_seam _ _).1 (fun hh => hseam ⟨hh.1, hh.2.1⟩)]
  omega

/-- Two tiles of four pixels in a column, one under the other, all white. -/
def seamTiles : List CachedTile :=
  [⟨0, 0, 1, 4, List.replicate 4 0xFFFFFFFF, .preMulArgb32, 1, .scroll⟩,
   ⟨0, 4, 1, 4, List.replicate 4 0xFFFFFFFF, .preMulArgb32, 1, .scroll⟩]

/-- C75 fails: scrolled by two and a half pixels, the background shows between the two. -/
theorem C75_violated : compositeTiles seamTiles 1 0 (5 / 2) ⟨1, 0, 0, 1, 5⟩ (List.replicate 5 0xFF000000) =
    some [0xFFFFFFFF, 0xFF000000, 0xFFFFFFFF, 0xFFFFFFFF, 0xFFFFFFFF] := by decide +kernel

/-- The same scrolled by a little less. -/
example : compositeTiles seamTiles 1 0 (9 / 4) ⟨1, 0, 0, 1, 5⟩ (List.replicate 5 0xFF000000) =
    some (List.replicate 5 0xFFFFFFFF) := by decide +kernel

/-- The hypotheses of `C56_result` are met, with a target inside a larger buffer. -/
example : (∀ t ∈ seamTiles, TileOk t) ∧ Fits ⟨3, 1, 1, 1, 3⟩ (List.replicate 15 0xFF000000) := by
  constructor
  · intro t ht
    simp only [seamTiles, List.mem_cons, List.not_mem_nil, or_false] at ht
    rcases ht with rfl | rfl <;> exact ⟨by decide, by decide⟩
  · refine ⟨by decide, fun x y hx hy => ?_⟩
    simp only [List.length_replicate] at *
    omega

/-- Compositing where it is not: a target wider than the rows of the buffer panics. -/
example : compositeTiles seamTiles 1 0 0 ⟨1, 0, 0, 1, 5⟩ (List.replicate 4 0xFF000000) = none := by decide +kernel

example : scalePremul (pack 200 100 50 0) (1 / 2) = some (pack 100 50 25 0) ∧
    blendOver (pack 128 128 0 0) (pack 255 0 0 255) = some (pack 255 128 0 127) ∧ Premul (pack 128 128 0 0) := by
  rw [Premul]; decide +kernel

end Verif.Composite
