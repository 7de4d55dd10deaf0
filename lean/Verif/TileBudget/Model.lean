import Verif.Layers.Model

/-!
# Tile budget

Model of gosub_render_pipeline/src/tile_budget.rs: which tiles are rastered, which are evicted when the
memory budget is exceeded, and when a scroll needs a new raster.

Simplifications: `f64` is exact (rational, no rounding, no NaN); positions are kept as the bit patterns that
key them, with `val` for `f64::from_bits`, which is left uninterpreted; `usize` and `u64` are unbounded; a
pixel buffer is its address and length.  The lock makes each method one step.  `HashMap` iteration has no fixed
order: maps are lists and the theorems hold for every order.
-/
namespace Verif.TileBudget
open Verif.Map Verif.Layers

/-- tile_budget.rs 23, `TilePosKey`: the bits of `page_x` and `page_y`, and the layer. -/
abbrev Key := Nat × Nat × Nat

/-- common/texture.rs 30-36, `TilePixels`. -/
inductive Pixels where
  | cpu (ptr len : Nat)
  | gpu
deriving DecidableEq

/-- rasterizer.rs 61-77, `BakedTile`, without format and opacity. -/
structure Tile where
  key : Key
  width : Nat
  height : Nat
  pixels : Pixels
  anchor : Anchor
deriving DecidableEq

/-- rasterizer.rs 81-85, an entry of `TilePixelCache`: position, content hash, size, pixels. -/
structure CacheEntry where
  key : Key
  hash : Nat
  width : Nat
  height : Nat
  pixels : Pixels
deriving DecidableEq

/-- tile_budget.rs 30-38, `EvictionReport`. -/
structure Report where
  evictedTiles : Nat
  evictedBytes : Nat
  residentBytes : Nat
deriving DecidableEq

/-- tile_budget.rs 40-49, `BudgetState`. -/
structure State where
  tick : Nat
  lastUsed : List (Key × Nat)
  evicted : List Rect
  rastered : Option (ℚ × ℚ)
deriving DecidableEq

/-- tile_budget.rs 67-70, `raster_window` (the margin is one viewport, line 59). -/
def rasterWindow (scrollY vpH : ℚ) : ℚ × ℚ :=
  let margin := 1 * vpH
  (scrollY - margin, scrollY + vpH + margin)

/-- tile_budget.rs 73-76, `refresh_window` (the margin is half a viewport, line 63). -/
def refreshWindow (scrollY vpH : ℚ) : ℚ × ℚ :=
  let margin := 1 / 2 * vpH
  (scrollY - margin, scrollY + vpH + margin)

/-- tile_budget.rs 78-81, `clamp_to_page`. -/
def clampToPage (w : ℚ × ℚ) (pageHeight : ℚ) : ℚ × ℚ :=
  let bottom := max pageHeight 0
  (max w.1 0, max (min w.2 bottom) 0)

/-- tiler.rs 78-90, the states of a tile told apart here. -/
inductive TState where
  | dirty | deferred | other
deriving DecidableEq

/-- tiler.rs 94-105, the fields of a tile read by `defer_tiles_outside_window`; the anchor is that of its layer. -/
structure RasterTile where
  id : Nat
  state : TState
  anchor : Anchor
  rect : Rect
deriving DecidableEq

/-- tile_budget.rs 92-100, whether a tile is put off. -/
def deferred (scrollY vpH : ℚ) (t : RasterTile) : Bool :=
  let w := rasterWindow scrollY vpH
  if t.state ≠ .dirty then false
  else if t.anchor ≠ .scroll then false
  else if t.rect.y < w.2 ∧ t.rect.y + t.rect.height > w.1 then false
  else true

/-- tile_budget.rs 86-106, `defer_tiles_outside_window`: the tiles after it, and the count. -/
def deferTiles (tiles : List RasterTile) (scrollY vpH : ℚ) : List RasterTile × Nat :=
  (tiles.map fun t => if deferred scrollY vpH t then { t with state := .deferred } else t,
   (tiles.filter (deferred scrollY vpH)).length)

/-- tile_budget.rs 115-121, `reset`. -/
def reset (_ : State) : State := ⟨0, [], [], none⟩

/-- tile_budget.rs 124-126, `note_full_raster`. -/
def noteFullRaster (s : State) : State := { s with evicted := [] }

/-- tile_budget.rs 129-132, `note_rastered_window`. -/
def noteRasteredWindow (s : State) (scrollY vpH pageHeight : ℚ) : State :=
  { s with rastered := some (clampToPage (rasterWindow scrollY vpH) pageHeight) }

section
variable (val : Nat → ℚ)

/-- tile_budget.rs 140-141, whether a tile is on screen. -/
def visible (t : Tile) (sx sy vpW vpH : ℚ) : Bool :=
  let e := anchoredPos (val t.key.1) (val t.key.2.1) sx sy t.anchor
  decide (e.1 < vpW) && decide (e.1 + t.width > 0) && decide (e.2 < vpH) && decide (e.2 + t.height > 0)

/-- tile_budget.rs 135-147, `touch_composited`. -/
def touchComposited (s : State) (tiles : List Tile) (sx sy vpW vpH : ℚ) : State :=
  let tick := s.tick + 1
  { s with
    tick := tick
    lastUsed := tiles.foldl (fun m t => if visible val t sx sy vpW vpH then put m t.key tick else m) s.lastUsed }

/-- tile_budget.rs 151-165, `needs_rerender`. -/
def needsRerender (s : State) (scrollY vpH pageHeight : ℚ) : Bool :=
  let w := clampToPage (refreshWindow scrollY vpH) pageHeight
  if s.evicted.any (fun r => decide (r.y < w.2) && decide (r.y + r.height > w.1)) then true
  else
    match s.rastered with
    | none => false
    | some r => decide (w.1 < r.1 - 1 / 2) || decide (w.2 > r.2 + 1 / 2)

/-- tile_budget.rs 182-186, `PosInfo`. -/
structure PosInfo where
  bytes : Nat
  prot : Bool
  rect : Rect
deriving DecidableEq

/-- tile_budget.rs 197, the arguments of the closure `add`. -/
structure Item where
  key : Key
  rect : Rect
  pixels : Pixels
  pinned : Bool
deriving DecidableEq

/-- tile_budget.rs 215-219, a tile as an argument of `add`. -/
def itemOfTile (t : Tile) : Item :=
  ⟨t.key, ⟨val t.key.1, val t.key.2.1, t.width, t.height⟩, t.pixels, decide (t.anchor ≠ .scroll)⟩

/-- tile_budget.rs 220-223, a cache entry as an argument of `add`. -/
def itemOfEntry (c : CacheEntry) : Item :=
  ⟨c.key, ⟨val c.key.1, val c.key.2.1, c.width, c.height⟩, c.pixels, false⟩

/-- tile_budget.rs 215-223, what `add` is called on. -/
def items (tiles : List Tile) (cache : List CacheEntry) : List Item :=
  tiles.map (itemOfTile val) ++ cache.map (itemOfEntry val)

/-- tile_budget.rs 194-195: the buffers counted and the positions. -/
structure Acc where
  counted : List (Nat × Nat)
  positions : List (Key × PosInfo)

/-- tile_budget.rs 198-204: the bytes a buffer adds. -/
def addedBytes (counted : List (Nat × Nat)) : Pixels → Nat
  | .cpu p l => if (p, l) ∈ counted then 0 else l
  | .gpu => 0

/-- tile_budget.rs 200: the buffers counted afterwards. -/
def countedWith (counted : List (Nat × Nat)) : Pixels → List (Nat × Nat)
  | .cpu p l => if (p, l) ∈ counted then counted else (p, l) :: counted
  | .gpu => counted

/-- tile_budget.rs 203. -/
def Pixels.isGpu : Pixels → Bool
  | .cpu _ _ => false
  | .gpu => true

/-- tile_budget.rs 205, `in_band`. -/
def inBand (r : Rect) (band : ℚ × ℚ) : Bool := decide (r.y < band.2) && decide (r.y + r.height > band.1)

/-- tile_budget.rs 206-212, the entry of a position after `add`. -/
def addTo (band : ℚ × ℚ) (i : Item) (bytes : Nat) (p : PosInfo) : PosInfo :=
  { p with bytes := p.bytes + bytes, prot := p.prot || (i.pinned || i.pixels.isGpu || inBand i.rect band) }

/-- tile_budget.rs 197-213, `add`. -/
def addItem (band : ℚ × ℚ) (a : Acc) (i : Item) : Acc :=
  let old := (look a.positions i.key).getD ⟨0, false, i.rect⟩
  ⟨countedWith a.counted i.pixels, put a.positions i.key (addTo band i (addedBytes a.counted i.pixels) old)⟩

/-- tile_budget.rs 191-224, the positions. -/
def positions (band : ℚ × ℚ) (is : List Item) : List (Key × PosInfo) := (is.foldl (addItem band) ⟨[], []⟩).positions

/-- tile_budget.rs 229, the bytes of all positions. -/
def totalBytes (ps : List (Key × PosInfo)) : Nat := (ps.map fun p => p.2.bytes).sum

/-- tile_budget.rs 241, a candidate for eviction. -/
structure Cand where
  tick : Nat
  dist : ℚ
  key : Key
  bytes : Nat
  rect : Rect
deriving DecidableEq

/-- tile_budget.rs 240-248, the candidates. -/
def candidates (lastUsed : List (Key × Nat)) (scrollY vpH : ℚ) (ps : List (Key × PosInfo)) : List Cand :=
  (ps.filter fun p => !p.2.prot && decide (p.2.bytes > 0)).map fun p =>
    ⟨(look lastUsed p.1).getD 0, |p.2.rect.y + p.2.rect.height / 2 - (scrollY + vpH / 2)|, p.1, p.2.bytes, p.2.rect⟩

/-- The order of keys, componentwise (`Ord` of tuples). -/
def keyLe (a b : Key) : Bool :=
  decide (a.1 < b.1) || (decide (a.1 = b.1) && (decide (a.2.1 < b.2.1) ||
    (decide (a.2.1 = b.2.1) && decide (a.2.2 ≤ b.2.2))))

/-- tile_budget.rs 249, the order of eviction: oldest, then farthest, then by key. -/
def candLe (a b : Cand) : Bool :=
  decide (a.tick < b.tick) || (decide (a.tick = b.tick) && (decide (b.dist < a.dist) ||
    (decide (a.dist = b.dist) && keyLe a.key b.key)))

/-- tile_budget.rs 251-261, the candidates evicted to get rid of `excess` bytes. -/
def evictLoop : List Cand → Nat → List Cand
  | [], _ => []
  | c :: r, excess => if excess = 0 then [] else c :: evictLoop r (excess - c.bytes)

/-- What `enforce` leaves: the state, the tiles, the cache and the report. -/
structure Outcome where
  state : State
  tiles : List Tile
  cache : List CacheEntry
  report : Report

/-- tile_budget.rs 174-271, `enforce`. -/
def enforce (s : State) (tiles : List Tile) (cache : List CacheEntry) (scrollY vpH : ℚ) (budget : Nat) : Outcome :=
  let ps := positions (rasterWindow scrollY vpH) (items val tiles cache)
  let lastUsed := s.lastUsed.filter fun e => (look ps e.1).isSome
  let resident := totalBytes ps
  if budget = 0 ∨ resident ≤ budget then ⟨{ s with lastUsed := lastUsed }, tiles, cache, ⟨0, 0, resident⟩⟩
  else
    let killed := evictLoop (isort candLe (candidates lastUsed scrollY vpH ps)) (resident - budget)
    let kill := killed.map Cand.key
    let evictedBytes := (killed.map Cand.bytes).sum
    ⟨{ s with
        evicted := s.evicted ++ killed.map Cand.rect
        lastUsed := lastUsed.filter fun e => !decide (e.1 ∈ kill) },
     tiles.filter fun t => !decide (t.key ∈ kill),
     cache.filter fun c => !decide (c.key ∈ kill),
     ⟨kill.length, evictedBytes, resident - evictedBytes⟩⟩

end

end Verif.TileBudget
