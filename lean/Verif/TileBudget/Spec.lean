import Mathlib.Data.List.Dedup
import Verif.TileBudget.Model

/-!
# Specification of the tile budget

Memory is what the buffers held by tiles and cache take, a buffer held several times taking its size once.
-/
namespace Verif.TileBudget
open Verif.Map Verif.Layers

/-- The buffer of some pixels in main memory: its address and size. -/
def Pixels.buffer : Pixels → Option (Nat × Nat)
  | .cpu p l => some (p, l)
  | .gpu => none

/-- The buffers held. -/
def buffers (tiles : List Tile) (cache : List CacheEntry) : List (Nat × Nat) :=
  tiles.filterMap (·.pixels.buffer) ++ cache.filterMap (·.pixels.buffer)

/-- The memory held. -/
def memory (tiles : List Tile) (cache : List CacheEntry) : Nat :=
  ((buffers tiles cache).dedup.map Prod.snd).sum

/-- The memory held at one position. -/
def memoryAt (tiles : List Tile) (cache : List CacheEntry) (k : Key) : Nat :=
  memory (tiles.filter fun t => t.key = k) (cache.filter fun c => c.key = k)

/-- A stretch of the page that comes within one viewport height of what is seen. -/
def Near (y height scrollY vpH : ℚ) : Prop := y < scrollY + 2 * vpH ∧ scrollY - vpH < y + height

/-- A tile that must not be evicted: it does not scroll, it has no pixels in main memory, or it is near. -/
def KeepTile (val : Nat → ℚ) (scrollY vpH : ℚ) (t : Tile) : Prop :=
  t.anchor ≠ .scroll ∨ t.pixels = .gpu ∨ Near (val t.key.2.1) t.height scrollY vpH

/-- The same for cached pixels. -/
def KeepEntry (val : Nat → ℚ) (scrollY vpH : ℚ) (c : CacheEntry) : Prop :=
  c.pixels = .gpu ∨ Near (val c.key.2.1) c.height scrollY vpH

/-- A position that must not be evicted. -/
def KeepAt (val : Nat → ℚ) (scrollY vpH : ℚ) (tiles : List Tile) (cache : List CacheEntry) (k : Key) : Prop :=
  (∃ t ∈ tiles, t.key = k ∧ KeepTile val scrollY vpH t) ∨ ∃ c ∈ cache, c.key = k ∧ KeepEntry val scrollY vpH c

/-- The positions in use. -/
def keysOf (tiles : List Tile) (cache : List CacheEntry) : List Key := tiles.map (·.key) ++ cache.map (·.key)

/-- Some buffer is held at a position. -/
def HeldAt (tiles : List Tile) (cache : List CacheEntry) (k : Key) (b : Nat × Nat) : Prop :=
  (∃ t ∈ tiles, t.key = k ∧ t.pixels.buffer = some b) ∨ ∃ c ∈ cache, c.key = k ∧ c.pixels.buffer = some b

/-- Different positions hold different buffers (empty buffers apart). -/
def NoSharing (tiles : List Tile) (cache : List CacheEntry) : Prop :=
  ∀ k k' b, HeldAt tiles cache k b → HeldAt tiles cache k' b → 0 < b.2 → k = k'

/-- The size of the first thing at a position, tiles first. -/
def sizeAt (tiles : List Tile) (cache : List CacheEntry) (k : Key) : Nat × Nat :=
  match tiles.find? (fun t => t.key = k), cache.find? (fun c => c.key = k) with
  | some t, _ => (t.width, t.height)
  | none, some c => (c.width, c.height)
  | none, none => (0, 0)

/-- The part of the page a position covers. -/
def rectAt (val : Nat → ℚ) (tiles : List Tile) (cache : List CacheEntry) (k : Key) : Rect :=
  ⟨val k.1, val k.2.1, (sizeAt tiles cache k).1, (sizeAt tiles cache k).2⟩

/-- How far the middle of a position is from the middle of the viewport. -/
def distAt (val : Nat → ℚ) (tiles : List Tile) (cache : List CacheEntry) (scrollY vpH : ℚ) (k : Key) : ℚ :=
  |((rectAt val tiles cache k).y + (rectAt val tiles cache k).height / 2) - (scrollY + vpH / 2)|

/-- When a position was last on screen; 0 for never. -/
def usedAt (s : State) (k : Key) : Nat := (look s.lastUsed k).getD 0

/-- `k` goes before `k'`: it has been off screen for longer, or as long and farther away, or the keys decide. -/
def Before (val : Nat → ℚ) (s : State) (tiles : List Tile) (cache : List CacheEntry) (scrollY vpH : ℚ) (k k' : Key) : Prop :=
  usedAt s k < usedAt s k' ∨ usedAt s k = usedAt s k' ∧
    (distAt val tiles cache scrollY vpH k' < distAt val tiles cache scrollY vpH k ∨
     distAt val tiles cache scrollY vpH k = distAt val tiles cache scrollY vpH k' ∧
      (k.1 < k'.1 ∨ k.1 = k'.1 ∧ (k.2.1 < k'.2.1 ∨ k.2.1 = k'.2.1 ∧ k.2.2 < k'.2.2)))

/-- The positions that are gone from the tiles and the cache. -/
def Gone (tiles : List Tile) (cache : List CacheEntry) (o : Outcome) (k : Key) : Prop :=
  k ∈ keysOf tiles cache ∧ k ∉ keysOf o.tiles o.cache

end Verif.TileBudget

/-! ## Scrolling -/
namespace Verif.TileBudget
open Verif.Map Verif.Layers

/-- A row of the page is on screen. -/
def Seen (scrollY vpH pageHeight y : ℚ) : Prop := 0 ≤ y ∧ y < pageHeight ∧ scrollY ≤ y ∧ y < scrollY + vpH

/-- A row belongs to a rectangle. -/
def InRows (r : Rect) (y : ℚ) : Prop := r.y ≤ y ∧ y < r.y + r.height

/-- Where a tile is drawn on screen. -/
def screenPos (val : Nat → ℚ) (t : Tile) (sx sy : ℚ) : ℚ × ℚ :=
  match t.anchor with
  | .scroll => (val t.key.1 - sx, val t.key.2.1 - sy)
  | .fixed => (val t.key.1, val t.key.2.1)
  | .sticky c => (val t.key.1 - sx + (c.offset sx sy).1, val t.key.2.1 - sy + (c.offset sx sy).2)

/-- A tile overlaps the screen. -/
def OnScreen (val : Nat → ℚ) (t : Tile) (sx sy vpW vpH : ℚ) : Prop :=
  (screenPos val t sx sy).1 < vpW ∧ 0 < (screenPos val t sx sy).1 + t.width ∧
  (screenPos val t sx sy).2 < vpH ∧ 0 < (screenPos val t sx sy).2 + t.height

/-- The calls that change the bookkeeping. -/
inductive Op where
  | reset
  | fullRaster
  | window (scrollY vpH pageHeight : ℚ)
  | touch (tiles : List Tile) (sx sy vpW vpH : ℚ)
  | enforce (tiles : List Tile) (cache : List CacheEntry) (scrollY vpH : ℚ) (budget : Nat)

/-- One call. -/
def step (val : Nat → ℚ) (s : State) : Op → State
  | .reset => TileBudget.reset s
  | .fullRaster => noteFullRaster s
  | .window y h p => noteRasteredWindow s y h p
  | .touch ts sx sy w h => touchComposited val s ts sx sy w h
  | .enforce ts cs y h b => (TileBudget.enforce val s ts cs y h b).state

/-- A history of calls. -/
def run (val : Nat → ℚ) (s : State) (ops : List Op) : State := ops.foldl (step val) s

/-- A new `TileBudget`. -/
def fresh : State := ⟨0, [], [], none⟩

end Verif.TileBudget
