import Mathlib.Data.Rat.Floor
import Verif.Layers.Model

/-!
# Compositing

Model of gosub_render_pipeline/src/render/tile_composite.rs and of the pixel arithmetic of
gosub_interface/src/render/backend.rs.

Simplifications: `f32`/`f64` are exact rationals; `usize` and `i64` are unbounded (the casts `as i64` saturate, far off
any screen); a `u32` is a natural number and arithmetic that would leave 32 bits is a panic (`none`), as are an index
out of bounds and a subtraction below zero; `bytemuck::cast_slice` is taken to succeed, so the data of a tile
is a list of 32-bit values (it panics on data that is not aligned to 4 bytes or not a multiple of 4 long).
-/
namespace Verif.Composite
open Verif.Layers

/-- backend.rs 60-66, `PixelFormat`. -/
inductive Format where
  | preMulArgb32
  | rgba8
deriving DecidableEq

/-- A `u32` result: a panic when it does not fit. -/
def chk (x : Nat) : Option Nat := if x < 2 ^ 32 then some x else none

/-- backend.rs 105-117, `pixel_to_argb_u32`. -/
def pixelToArgb (f : Format) (px : Nat) : Nat :=
  match f with
  | .preMulArgb32 => px
  | .rgba8 =>
    let a := px &&& 0xFF000000
    let g := px &&& 0x0000FF00
    let r := px &&& 0x000000FF
    let b := (px >>> 16) &&& 0xFF
    a ||| (r <<< 16) ||| g ||| b

/-- backend.rs 161-166, `mul_div255_pair`. -/
def mulDiv255Pair (pair factor : Nat) : Option Nat := do
  let t ← chk (pair * factor + 0x00800080)
  let u ← chk (t + ((t >>> 8) &&& 0x00FF00FF))
  some ((u >>> 8) &&& 0x00FF00FF)

/-- backend.rs 126-140, `blend_over_argb_u32`. -/
def blendOver (src dst : Nat) : Option Nat :=
  let sa := src >>> 24
  if sa = 0xFF then some src
  else if sa = 0 then some dst
  else
    let inv := 255 - sa
    do
      let mrb ← mulDiv255Pair (dst &&& 0x00FF00FF) inv
      let rb ← chk ((src &&& 0x00FF00FF) + mrb)
      let mag ← mulDiv255Pair ((dst >>> 8) &&& 0x00FF00FF) inv
      let ag ← chk (((src >>> 8) &&& 0x00FF00FF) + mag)
      some ((rb &&& 0x00FF00FF) ||| ((ag &&& 0x00FF00FF) <<< 8))

/-- backend.rs 151, `(opacity.clamp(0.0, 1.0) * 255.0 + 0.5) as u32`. -/
def opacityFactor (opacity : ℚ) : Nat :=
  (⌊(if opacity < 0 then 0 else if 1 < opacity then 1 else opacity) * 255 + 1 / 2⌋).toNat

/-- backend.rs 147-155, `scale_premul_argb_u32`. -/
def scalePremul (argb : Nat) (opacity : ℚ) : Option Nat :=
  if 1 ≤ opacity then some argb
  else do
    let rb ← mulDiv255Pair (argb &&& 0x00FF00FF) (opacityFactor opacity)
    let ag ← mulDiv255Pair ((argb >>> 8) &&& 0x00FF00FF) (opacityFactor opacity)
    some ((rb &&& 0x00FF00FF) ||| ((ag &&& 0x00FF00FF) <<< 8))

/-- backend.rs 263-280, `CachedTile`, with its data as pixels. -/
structure CachedTile where
  pageX : ℚ
  pageY : ℚ
  width : Nat
  height : Nat
  data : List Nat
  format : Format
  opacity : ℚ
  anchor : Anchor

/-- tile_composite.rs 25-32, `TileTarget`, without the buffer. -/
structure Target where
  stride : Nat
  originX : Nat
  originY : Nat
  width : Nat
  height : Nat

/-- `f64::round`: to the nearest integer, halves away from zero. -/
def roundQ (q : ℚ) : Int := if 0 ≤ q then ⌊q + 1 / 2⌋ else -⌊-q + 1 / 2⌋

/-- tile_composite.rs 47-56, the device position of a tile. -/
def tilePos (t : CachedTile) (dpr : Nat) (sx sy : ℚ) : Int × Int :=
  let v := anchoredPos t.pageX t.pageY sx sy t.anchor
  (roundQ (v.1 * dpr), roundQ (v.2 * dpr))

/-- tile_composite.rs 86-88, one pixel written over another. -/
def overPixel (t : CachedTile) (src dst : Nat) : Option Nat := do
  let s ← scalePremul (pixelToArgb t.format src) t.opacity
  blendOver s dst

/-- tile_composite.rs 85-89, the columns from `col`, `n` of them left. -/
def colLoop (t : CachedTile) (bufRow srcRow : Nat) : Nat → Nat → List Nat → Option (List Nat)
  | 0, _, buf => some buf
  | n + 1, col, buf => do
    let src ← t.data[srcRow + col]?
    let dst ← buf[bufRow + col]?
    let out ← overPixel t src dst
    colLoop t bufRow srcRow n (col + 1) (buf.set (bufRow + col) out)

/-- `usize` subtraction. -/
def sub? (a b : Nat) : Option Nat := if b ≤ a then some (a - b) else none

/-- tile_composite.rs 74-90, the rows from `tileRow`, `n` of them left. -/
def rowLoop (t : CachedTile) (g : Target) (col0 row0 dstX dstY0 : Nat) : Nat → Nat → List Nat → Option (List Nat)
  | 0, _, buf => some buf
  | n + 1, tileRow, buf =>
    let dstY := dstY0 + (tileRow - row0)
    if g.height ≤ dstY then some buf
    else do
      let l ← sub? t.width col0
      let r ← sub? g.width dstX
      let copyW := min l r
      if copyW = 0 then some buf
      else do
        let bufRow := (g.originY + dstY) * g.stride + g.originX + dstX
        let srcRow := tileRow * t.width + col0
        let buf ← colLoop t bufRow srcRow copyW 0 buf
        rowLoop t g col0 row0 dstX dstY0 n (tileRow + 1) buf

/-- tile_composite.rs 46-91, one tile. -/
def compositeTile (dpr : Nat) (sx sy : ℚ) (g : Target) (buf : List Nat) (t : CachedTile) : Option (List Nat) :=
  let p := tilePos t dpr sx sy
  if p.1 ≥ g.width ∨ p.2 ≥ g.height ∨ p.1 + t.width ≤ 0 ∨ p.2 + t.height ≤ 0 then some buf
  else
    let col0 := (max (-p.1) 0).toNat
    let row0 := (max (-p.2) 0).toNat
    let dstX := (max p.1 0).toNat
    let dstY0 := (max p.2 0).toNat
    rowLoop t g col0 row0 dstX dstY0 (t.height - row0) row0 buf

/-- tile_composite.rs 40-92, `composite_tiles`: the buffer afterwards, `none` for a panic. -/
def compositeTiles (tiles : List CachedTile) (dpr : Nat) (sx sy : ℚ) (g : Target) (buf : List Nat) : Option (List Nat) :=
  tiles.foldlM (compositeTile dpr sx sy g) buf

/-- tile_composite.rs 98-109, `argb_u32_to_rgba8`. -/
def argbToRgba8 (buf : List Nat) : List Nat :=
  buf.flatMap fun px => [(px >>> 16) &&& 0xFF, (px >>> 8) &&& 0xFF, px &&& 0xFF, 255]

/-- backend.rs 89-95, `swap_rb`: whole groups of four; a rest stays. -/
def swapRb : List Nat → List Nat
  | a :: b :: c :: d :: r => c :: b :: a :: d :: swapRb r
  | l => l

/-- backend.rs 71-76, `to_rgba`. -/
def toRgba (f : Format) (data : List Nat) : List Nat :=
  match f with
  | .rgba8 => data
  | .preMulArgb32 => swapRb data

/-- backend.rs 80-85, `to_argb32`. -/
def toArgb32 (f : Format) (data : List Nat) : List Nat :=
  match f with
  | .preMulArgb32 => data
  | .rgba8 => swapRb data

end Verif.Composite
