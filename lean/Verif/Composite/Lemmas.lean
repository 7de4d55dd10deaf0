import Mathlib.Tactic.Linarith
import Mathlib.Tactic.Ring
import Verif.Composite.Spec

/-! # Channel arithmetic -/
namespace Verif.Composite
open Verif.Layers

theorem and_255 (p : Nat) : p &&& 0xFF = p % 256 := Nat.and_two_pow_sub_one_eq_mod p 8

theorem and_shift (p m k : Nat) : p &&& (m <<< k) = ((p >>> k) &&& m) <<< k := by
  apply Nat.eq_of_testBit_eq
  intro i
  rw [Nat.testBit_and, Nat.testBit_shiftLeft, Nat.testBit_shiftLeft, Nat.testBit_and, Nat.testBit_shiftRight]
  by_cases h : k ≤ i
  · simp [h]
  · simp [h]

theorem add_or {k a b : Nat} (h : b < 2 ^ k) : 2 ^ k * a ||| b = 2 ^ k * a + b :=
  (Nat.two_pow_add_eq_or_of_lt h a).symm

theorem mask_rb (p : Nat) : p &&& 0x00FF00FF = chR p * 2 ^ 16 + chB p := by
  have h1 : (0x00FF00FF : Nat) = (0xFF <<< 16) ||| 0xFF := by decide
  rw [h1, Nat.and_or_distrib_left, and_shift, and_255, and_255, Nat.shiftRight_eq_div_pow, Nat.shiftLeft_eq,
    Nat.mul_comm, add_or (by omega), chR, chB, Nat.mul_comm]

theorem mask_ag {p : Nat} (hp : p < 2 ^ 32) : (p >>> 8) &&& 0x00FF00FF = chA p * 2 ^ 16 + chG p := by
  rw [mask_rb, Nat.shiftRight_eq_div_pow, chR, chB, chA, chG]
  omega

theorem join (a r g b : Nat) (hr : r < 256) (hg : g < 256) (hb : b < 256) :
    (r * 2 ^ 16 + b) ||| ((a * 2 ^ 16 + g) <<< 8) = pack a r g b := by
  have e1 : r * 2 ^ 16 + b = 2 ^ 16 * r ||| b := by rw [add_or (by omega)]; ring
  have e2 : (a * 2 ^ 16 + g) <<< 8 = 2 ^ 24 * a ||| 2 ^ 8 * g := by
    rw [Nat.shiftLeft_eq, add_or (by omega)]; ring
  have e3 : 2 ^ 24 * a ||| 2 ^ 16 * r = 2 ^ 16 * (256 * a + r) := by
    rw [add_or (by omega)]; ring
  have e4 : 2 ^ 8 * g ||| b = 2 ^ 8 * g + b := add_or (by omega)
  have e5 : (2 ^ 16 * r ||| b) ||| (2 ^ 24 * a ||| 2 ^ 8 * g) = (2 ^ 24 * a ||| 2 ^ 16 * r) ||| (2 ^ 8 * g ||| b) := by
    rw [Nat.or_comm (2 ^ 16 * r ||| b), Nat.or_assoc, Nat.or_comm (2 ^ 8 * g), Nat.or_assoc, ← Nat.or_assoc,
      Nat.or_comm b]
  rw [e1, e2, e5, e3, e4, add_or (by omega), pack]
  ring

theorem pack_channels (p : Nat) : pack (chA p) (chR p) (chG p) (chB p) = p := by
  rw [pack, chA, chR, chG, chB]; omega

theorem ch_pack (a r g b : Nat) (hr : r < 256) (hg : g < 256) (hb : b < 256) :
    chA (pack a r g b) = a ∧ chR (pack a r g b) = r ∧ chG (pack a r g b) = g ∧ chB (pack a r g b) = b := by
  rw [pack, chA, chR, chG, chB]
  omega

theorem chA_lt {p : Nat} (hp : p < 2 ^ 32) : chA p < 256 := by rw [chA]; omega
theorem chR_lt (p : Nat) : chR p < 256 := by rw [chR]; omega
theorem chG_lt (p : Nat) : chG p < 256 := by rw [chG]; omega
theorem chB_lt (p : Nat) : chB p < 256 := by rw [chB]; omega

theorem pack_lt {a r g b : Nat} (ha : a < 256) (hr : r < 256) (hg : g < 256) (hb : b < 256) : pack a r g b < 2 ^ 32 := by
  rw [pack]; omega

/-- One channel of `mul_div255_pair`. -/
def div255 (x : Nat) : Nat := (x + 128 + (x + 128) / 256) / 256

theorem div255_nearest {x : Nat} (hx : x ≤ 65025) : Nearest255 (div255 x) x := by
  rw [Nearest255, div255]; omega

theorem div255_le {x : Nat} (hx : x ≤ 65025) : div255 x ≤ 255 := by rw [div255]; omega

theorem div255_mono {x y : Nat} (h : x ≤ y) : div255 x ≤ div255 y := by rw [div255, div255]; omega

/-- The nearest is unique. -/
theorem nearest_unique {m n x : Nat} (h : Nearest255 m x) (h' : Nearest255 n x) : m = n := by
  rw [Nearest255] at *; omega

theorem high_byte (A B : Nat) (hA : A < 65536) (hB : B < 65536) : (A * 2 ^ 16 + B) / 2 ^ 8 / 2 ^ 16 % 256 = A / 256 := by
  omega

theorem low_byte (A B : Nat) (hB : B < 65536) : (A * 2 ^ 16 + B) / 2 ^ 8 % 256 = B / 256 := by omega

theorem mulDiv_of (pair factor t : Nat) (ht : pair * factor + 0x00800080 = t) (h1 : t < 2 ^ 32)
    (h2 : t + ((t >>> 8) &&& 0x00FF00FF) < 2 ^ 32) :
    mulDiv255Pair pair factor = some (((t + ((t >>> 8) &&& 0x00FF00FF)) >>> 8) &&& 0x00FF00FF) := by
  simp only [mulDiv255Pair, ht, chk, if_pos h1, Option.bind_eq_bind, Option.bind_some, if_pos h2]

theorem pair_shift (X Y : Nat) (hX : X < 65536) (hY : Y < 65536) :
    ((X * 2 ^ 16 + Y) >>> 8) &&& 0x00FF00FF = X / 256 * 2 ^ 16 + Y / 256 := by
  rw [mask_rb, Nat.shiftRight_eq_div_pow, chR, chB, high_byte _ _ hX hY, low_byte _ _ hY]

theorem pair_div (X Y : Nat) (hX : X ≤ 65153) (hY : Y ≤ 65153) (p f : Nat)
    (ht : p * f + 0x00800080 = X * 2 ^ 16 + Y) :
    mulDiv255Pair p f = some ((X + X / 256) / 256 * 2 ^ 16 + (Y + Y / 256) / 256) := by
  have hs := pair_shift X Y (by omega) (by omega)
  rw [mulDiv_of p f _ ht (by omega) (by rw [hs]; omega), hs]
  have e : X * 2 ^ 16 + Y + (X / 256 * 2 ^ 16 + Y / 256) = (X + X / 256) * 2 ^ 16 + (Y + Y / 256) := by omega
  rw [e, pair_shift _ _ (by omega) (by omega)]

theorem prod_le {c f : Nat} (hc : c < 256) (hf : f ≤ 255) : c * f ≤ 65025 :=
  Nat.le_trans (Nat.mul_le_mul (Nat.le_of_lt_succ hc) hf) (by decide)

theorem mulDiv_pair (h l f : Nat) (hh : h < 256) (hl : l < 256) (hf : f ≤ 255) :
    mulDiv255Pair (h * 2 ^ 16 + l) f = some (div255 (h * f) * 2 ^ 16 + div255 (l * f)) := by
  have h1 := prod_le hh hf
  have h2 := prod_le hl hf
  have ht : (h * 2 ^ 16 + l) * f = h * f * 2 ^ 16 + l * f := by ring
  rw [pair_div (h * f + 128) (l * f + 128) (by omega) (by omega) _ _ (by rw [ht]; omega), div255, div255]

/-- Scaling, on channels. -/
theorem scale_spec {p : Nat} (hp : p < 2 ^ 32) (o : ℚ) (ho : o < 1) (hf : opacityFactor o ≤ 255) :
    scalePremul p o = some (pack (div255 (chA p * opacityFactor o)) (div255 (chR p * opacityFactor o))
      (div255 (chG p * opacityFactor o)) (div255 (chB p * opacityFactor o))) := by
  have ha := chA_lt hp
  have hr := chR_lt p
  have hg := chG_lt p
  have hb := chB_lt p
  generalize hfd : opacityFactor o = f at *
  have hle : ∀ c, c < 256 → div255 (c * f) < 256 := fun c hc =>
    Nat.lt_succ_of_le (div255_le (by calc c * f ≤ 255 * 255 := Nat.mul_le_mul (by omega) hf
                                       _ = 65025 := rfl))
  have e1 := hle _ ha
  have e2 := hle _ hr
  have e3 := hle _ hg
  have e4 := hle _ hb
  rw [scalePremul, if_neg (not_le.mpr ho), hfd, mask_rb, mask_ag hp, mulDiv_pair _ _ _ hr hb hf,
    mulDiv_pair _ _ _ ha hg hf]
  simp only [Option.bind_eq_bind, Option.bind_some, Option.some.injEq]
  generalize div255 (chA p * f) = xa at *
  generalize div255 (chR p * f) = xr at *
  generalize div255 (chG p * f) = xg at *
  generalize div255 (chB p * f) = xb at *
  have m1 : (xr * 2 ^ 16 + xb) &&& 0x00FF00FF = xr * 2 ^ 16 + xb := by rw [mask_rb, chR, chB]; omega
  have m2 : (xa * 2 ^ 16 + xg) &&& 0x00FF00FF = xa * 2 ^ 16 + xg := by rw [mask_rb, chR, chB]; omega
  rw [m1, m2, join _ _ _ _ e2 e3 e4]

/-- Blending, on channels, whatever the source: each sum is cut to 8 bits. -/
theorem blend_spec {s d : Nat} (hs : s < 2 ^ 32) (hd : d < 2 ^ 32) (h0 : chA s ≠ 0) (h1 : chA s ≠ 255) :
    blendOver s d = some (pack ((chA s + div255 (chA d * (255 - chA s))) % 256)
      ((chR s + div255 (chR d * (255 - chA s)) + (chB s + div255 (chB d * (255 - chA s))) / 65536) % 256)
      ((chG s + div255 (chG d * (255 - chA s))) % 256)
      ((chB s + div255 (chB d * (255 - chA s))) % 256)) := by
  have hsa : s >>> 24 = chA s := by rw [Nat.shiftRight_eq_div_pow, chA]
  have ha := chA_lt hs
  have hf : 255 - chA s ≤ 255 := Nat.sub_le _ _
  simp only [blendOver, hsa]
  rw [if_neg h1, if_neg h0, mask_rb, mask_rb, mask_ag hs, mask_ag hd, mulDiv_pair _ _ _ (chR_lt d) (chB_lt d) hf,
    mulDiv_pair _ _ _ (chA_lt hd) (chG_lt d) hf]
  simp only [Option.bind_eq_bind, Option.bind_some]
  have hle : ∀ c, c < 256 → div255 (c * (255 - chA s)) ≤ 255 := fun c hc =>
    (div255_le (by calc c * (255 - chA s) ≤ 255 * 255 := Nat.mul_le_mul (by omega) hf
                     _ = 65025 := rfl))
  have e1 := hle _ (chA_lt hd)
  have e2 := hle _ (chR_lt d)
  have e3 := hle _ (chG_lt d)
  have e4 := hle _ (chB_lt d)
  have r1 := chR_lt s
  have r2 := chG_lt s
  have r3 := chB_lt s
  generalize div255 (chA d * (255 - chA s)) = xa at *
  generalize div255 (chR d * (255 - chA s)) = xr at *
  generalize div255 (chG d * (255 - chA s)) = xg at *
  generalize div255 (chB d * (255 - chA s)) = xb at *
  generalize chA s = ya at *
  generalize chR s = yr at *
  generalize chG s = yg at *
  generalize chB s = yb at *
  have c1 : chk (yr * 2 ^ 16 + yb + (xr * 2 ^ 16 + xb)) = some (yr * 2 ^ 16 + yb + (xr * 2 ^ 16 + xb)) := by
    rw [chk, if_pos (by omega)]
  have c2 : chk (ya * 2 ^ 16 + yg + (xa * 2 ^ 16 + xg)) = some (ya * 2 ^ 16 + yg + (xa * 2 ^ 16 + xg)) := by
    rw [chk, if_pos (by omega)]
  simp only [c1, c2, Option.bind_some, Option.some.injEq]
  have m1 : (yr * 2 ^ 16 + yb + (xr * 2 ^ 16 + xb)) &&& 0x00FF00FF =
      ((yr + xr + (yb + xb) / 65536) % 256) * 2 ^ 16 + (yb + xb) % 256 := by rw [mask_rb, chR, chB]; omega
  have m2 : (ya * 2 ^ 16 + yg + (xa * 2 ^ 16 + xg)) &&& 0x00FF00FF =
      ((ya + xa) % 256) * 2 ^ 16 + (yg + xg) % 256 := by rw [mask_rb, chR, chB]; omega
  rw [m1, m2, join _ _ _ _ (by omega) (by omega) (by omega)]

theorem blend_some {s d : Nat} (hs : s < 2 ^ 32) (hd : d < 2 ^ 32) : ∃ o, blendOver s d = some o ∧ o < 2 ^ 32 := by
  have hsa : s >>> 24 = chA s := by rw [Nat.shiftRight_eq_div_pow, chA]
  by_cases h1 : chA s = 255
  · exact ⟨s, by simp only [blendOver, hsa]; rw [if_pos h1], hs⟩
  · by_cases h0 : chA s = 0
    · exact ⟨d, by simp only [blendOver, hsa]; rw [if_neg h1, if_pos h0], hd⟩
    · exact ⟨_, blend_spec hs hd h0 h1, pack_lt (by omega) (by omega) (by omega) (by omega)⟩

theorem factor_spec (o : ℚ) : opacityFactor o ≤ 255 ∧ ∀ (_ : 0 ≤ o) (_ : o ≤ 1),
    ((opacityFactor o : ℚ) - 1 / 2 ≤ o * 255 ∧ o * 255 < opacityFactor o + 1 / 2) := by
  obtain ⟨c, hc⟩ : ∃ c, c = (if o < 0 then 0 else if 1 < o then 1 else o : ℚ) := ⟨_, rfl⟩
  have hc0 : 0 ≤ c := by rw [hc]; split; exact le_rfl; split; exact zero_le_one; linarith
  have hc1 : c ≤ 1 := by rw [hc]; split; exact zero_le_one; split; exact le_rfl; linarith
  have hf : opacityFactor o = (⌊c * 255 + 1 / 2⌋).toNat := by rw [opacityFactor, ← hc]
  have hn : 0 ≤ ⌊c * 255 + 1 / 2⌋ := Int.floor_nonneg.mpr (by linarith)
  have hle : ⌊c * 255 + 1 / 2⌋ ≤ 255 := by
    have : ⌊c * 255 + 1 / 2⌋ < 256 := Int.floor_lt.mpr (by push_cast; linarith)
    omega
  rw [hf]
  constructor
  · omega
  · intro h0 h1
    have hco : c = o := by rw [hc, if_neg (by linarith), if_neg (by linarith)]
    have hcast : (((⌊c * 255 + 1 / 2⌋).toNat : Nat) : ℚ) = (⌊c * 255 + 1 / 2⌋ : ℚ) := by
      have : (((⌊c * 255 + 1 / 2⌋).toNat : Nat) : Int) = ⌊c * 255 + 1 / 2⌋ := Int.toNat_of_nonneg hn
      exact_mod_cast this
    rw [hcast, ← hco]
    have h3 := Int.floor_le (c * 255 + 1 / 2)
    have h4 := Int.lt_floor_add_one (c * 255 + 1 / 2)
    constructor <;> linarith

theorem scale_some {p : Nat} (hp : p < 2 ^ 32) (o : ℚ) : ∃ q, scalePremul p o = some q ∧ q < 2 ^ 32 := by
  by_cases ho : 1 ≤ o
  · exact ⟨p, by rw [scalePremul, if_pos ho], hp⟩
  · have hf := (factor_spec o).1
    refine ⟨_, scale_spec hp o (not_le.mp ho) hf, ?_⟩
    have hle : ∀ c, c < 256 → div255 (c * opacityFactor o) < 256 := fun c hc =>
      Nat.lt_succ_of_le (div255_le (by calc c * opacityFactor o ≤ 255 * 255 := Nat.mul_le_mul (by omega) hf
                                         _ = 65025 := rfl))
    exact pack_lt (hle _ (chA_lt hp)) (hle _ (chR_lt p)) (hle _ (chG_lt p)) (hle _ (chB_lt p))

theorem pixel_rgba {p : Nat} (hp : p < 2 ^ 32) : pixelToArgb .rgba8 p = pack (chA p) (chB p) (chG p) (chR p) := by
  have h1 : (0xFF000000 : Nat) = 0xFF <<< 24 := by decide
  have h2 : (0x0000FF00 : Nat) = 0xFF <<< 8 := by decide
  have h3 : (0x000000FF : Nat) = 0xFF := rfl
  simp only [pixelToArgb]
  rw [h1, h2, and_shift, and_shift, and_255, and_255, and_255, and_255]
  have e1 : (p >>> 24 % 256) <<< 24 = 2 ^ 24 * chA p := by
    rw [Nat.shiftRight_eq_div_pow, Nat.shiftLeft_eq, chA, Nat.mod_eq_of_lt (by omega), Nat.mul_comm]
  have e2 : (p % 256) <<< 16 = 2 ^ 16 * chB p := by rw [Nat.shiftLeft_eq, chB, Nat.mul_comm]
  have e3 : (p >>> 8 % 256) <<< 8 = 2 ^ 8 * chG p := by
    rw [Nat.shiftRight_eq_div_pow, Nat.shiftLeft_eq, chG, Nat.mul_comm]
  have e4 : p >>> 16 % 256 = chR p := by rw [Nat.shiftRight_eq_div_pow, chR]
  rw [e1, e2, e3, e4]
  have r1 := chR_lt p
  have r2 := chG_lt p
  have r3 := chB_lt p
  rw [add_or (k := 24) (by omega)]
  have f1 : 2 ^ 24 * chA p + 2 ^ 16 * chB p = 2 ^ 16 * (256 * chA p + chB p) := by ring
  rw [f1, add_or (k := 16) (by omega)]
  have f2 : 2 ^ 16 * (256 * chA p + chB p) + 2 ^ 8 * chG p = 2 ^ 8 * (65536 * chA p + 256 * chB p + chG p) := by ring
  rw [f2, add_or (k := 8) (by omega), pack]
  ring

theorem pixel_lt {p : Nat} (hp : p < 2 ^ 32) (f : Format) : pixelToArgb f p < 2 ^ 32 := by
  cases f with
  | preMulArgb32 => exact hp
  | rgba8 => rw [pixel_rgba hp]; exact pack_lt (chA_lt hp) (chB_lt p) (chG_lt p) (chR_lt p)

theorem overPixel_some (t : CachedTile) {s d : Nat} (hs : s < 2 ^ 32) (hd : d < 2 ^ 32) :
    ∃ o, overPixel t s d = some o ∧ o < 2 ^ 32 := by
  obtain ⟨q, hq, hq'⟩ := scale_some (pixel_lt hs t.format) t.opacity
  obtain ⟨o, ho, ho'⟩ := blend_some hq' hd
  exact ⟨o, by simp [overPixel, hq, ho], ho'⟩

end Verif.Composite
