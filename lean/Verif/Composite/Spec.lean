import Verif.Composite.Model

/-!
# Specification of compositing

A pixel is four channels of 8 bits.  `pack a r g b` is the 32-bit value of them; it says how values are read.
-/
namespace Verif.Composite
open Verif.Layers

/-- `0xAARRGGBB`. -/
def pack (a r g b : Nat) : Nat := a * 2 ^ 24 + r * 2 ^ 16 + g * 2 ^ 8 + b

/-- The channels. -/
def chA (p : Nat) : Nat := p / 2 ^ 24
def chR (p : Nat) : Nat := p / 2 ^ 16 % 256
def chG (p : Nat) : Nat := p / 2 ^ 8 % 256
def chB (p : Nat) : Nat := p % 256

/-- `n` is the whole number nearest to `x / 255` (255 is odd, so there is one). -/
def Nearest255 (n x : Nat) : Prop := 2 * (255 * n) < 2 * x + 255 ∧ 2 * x < 2 * (255 * n) + 255

/-- No colour channel exceeds alpha. -/
def Premul (p : Nat) : Prop := chR p ≤ chA p ∧ chG p ≤ chA p ∧ chB p ≤ chA p

/-- A channel of `d` seen through `inv` 255ths, added to one of `s`. -/
def Over255 (out s d inv : Nat) : Prop := ∃ n, Nearest255 n (d * inv) ∧ out = s + n

/-- A number of the form n + 1/2. -/
def Half (q : ℚ) : Prop := ∃ n : Int, q = n + 1 / 2

/-- `q` rounded to the nearest whole number, halves away from zero. -/
def Rounded (q : ℚ) (n : Int) : Prop :=
  (n : ℚ) - 1 / 2 ≤ q ∧ q ≤ n + 1 / 2 ∧ (q = n - 1 / 2 → 0 < q) ∧ (q = n + 1 / 2 → q < 0)

/-- The target rectangle lies in the buffer and its rows do not overlap. -/
def Fits (g : Target) (buf : List Nat) : Prop :=
  g.originX + g.width ≤ g.stride ∧ ∀ x y, x < g.width → y < g.height →
    (g.originY + y) * g.stride + g.originX + x < buf.length

/-- The place in the buffer of a pixel of the target. -/
def at' (g : Target) (x y : Nat) : Nat := (g.originY + y) * g.stride + g.originX + x

/-- The tile has all its pixels, of 32 bits. -/
def TileOk (t : CachedTile) : Prop := t.width * t.height ≤ t.data.length ∧ ∀ p ∈ t.data, p < 2 ^ 32

/-- A tile placed at (px, py) covers the pixel (x, y). -/
def Covers (t : CachedTile) (px py : Int) (x y : Nat) : Prop :=
  px ≤ x ∧ (x : Int) < px + t.width ∧ py ≤ y ∧ (y : Int) < py + t.height

instance (t : CachedTile) (px py : Int) (x y : Nat) : Decidable (Covers t px py x y) := by
  unfold Covers; infer_instance

/-- The pixel of the tile at that place. -/
def pixelOf (t : CachedTile) (px py : Int) (x y : Nat) : Nat :=
  t.data.getD (((y : Int) - py).toNat * t.width + ((x : Int) - px).toNat) 0

/-- What one tile makes of a pixel. -/
def over (dpr : Nat) (sx sy : ℚ) (x y : Nat) (dst : Nat) (t : CachedTile) : Nat :=
  let p := tilePos t dpr sx sy
  if Covers t p.1 p.2 x y then (overPixel t (pixelOf t p.1 p.2 x y) dst).getD 0 else dst

end Verif.Composite
